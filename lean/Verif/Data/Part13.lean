import Verif.Lemmas.DataNum

/-! Copy of files in /repo/bfit/data/data.tar, generated by tools/gendata.py. -/

namespace BFit.Data

/-- `data/cation/zr`. -/
noncomputable def cation_zr : DataFile := ⟨40, .cation, [
  chars! "      ZIRCONIUM+   K(2)L(8)M(18)4S(2)4P(6)5S(1)4D(2), 4F                              \n",
  chars! "\n",
  chars! "\n",
  chars! "\n",
  chars! "\n",
  chars! "   E = -3538.809302333\n",
  chars! "   T =  3538.809299988     V = -7077.618602321     V/T =    -2.000000001\n",
  chars! "\n",
  chars! "  ORBITAL ENERGIES AND EXPANSION COEFFICIENTS\n",
  chars! "        S                    1S             2S             3S             4S             5S \n",
  chars! "  BASIS/ORB.ENERGY     -650.9437510    -91.6153963    -16.2921285     -2.6540124     -0.4444497\n",
  chars! "              CUSP        1.0003313      1.0002089      1.0003686      1.0005258      1.0005288\n",
  chars! "  2S       58.988353     -0.0249146     -0.0476167     -0.0235945     -0.0094099      0.0029843\n",
  chars! "  3S       50.489673     -0.0393088     -0.0679106     -0.0340347     -0.0136630      0.0043363\n",
  chars! "  1S       41.797820     -0.9241489     -0.2936026     -0.1219059     -0.0460527      0.0144250\n",
  chars! "  4S       29.344692      0.0346627      0.1421329      0.0791711      0.0319456     -0.0101868\n",
  chars! "  4S       20.990474      0.0181514      0.1466750      0.1844239      0.0923889     -0.0307207\n",
  chars! "  2S       18.163822     -0.0755356      0.6682452      0.3697017      0.1704706     -0.0565352\n",
  chars! "  2S       12.343777      0.0002656      0.1625641      0.0167871     -0.0781160      0.0345710\n",
  chars! "  3S        8.654904     -0.0002278     -0.0035853     -0.9371970     -0.4014439      0.1265748\n",
  chars! "  3S        6.409740      0.0002029      0.0021286     -0.2392804     -0.6471225      0.2632379\n",
  chars! "  4S        2.637269      0.0000935      0.0005251     -0.0017611     -0.0066072     -0.1537336\n",
  chars! "  2S        2.558706     -0.0001097     -0.0008104     -0.0004017      1.4622462     -0.7747059\n",
  chars! "  3S        1.619432     -0.0001487     -0.0006983      0.0023738      0.0251332     -0.4844275\n",
  chars! "  2S        0.942882      0.0001551      0.0006943     -0.0023132     -0.0183385      1.5531235\n",
  chars! "  3S        0.942815     -0.0000570     -0.0002534      0.0008540      0.0047692      0.1657494\n",
  chars! "        P                    2P             3P             4P \n",
  chars! "  BASIS/ORB.ENERGY      -83.7166525    -13.2574632     -1.7238616\n",
  chars! "              CUSP        1.0009990      0.9998709      1.0001366\n",
  chars! "  2P       64.011332     -0.0037754      0.0025808     -0.0010762\n",
  chars! "  3P       51.677914     -0.0089619      0.0060609     -0.0025367\n",
  chars! "  2P       29.333676      0.3411613     -0.1518465      0.0530951\n",
  chars! "  3P       23.977773      0.3880556     -0.1461293      0.0432763\n",
  chars! "  3P       18.149720      0.2958210     -0.2646858      0.1174702\n",
  chars! "  3P       14.407147      0.0703046      0.0954824     -0.0734511\n",
  chars! "  3P        8.665279      0.0030787      0.7185904     -0.2442064\n",
  chars! "  3P        6.373664     -0.0001458      0.3632938     -0.4256628\n",
  chars! "  3P        3.175024      0.0000138      0.0057285      0.3825252\n",
  chars! "  2P        1.990389     -0.0000272     -0.0018345      0.8412707\n",
  chars! "  2P        0.942815      0.0000020      0.0001171      0.0055847\n",
  chars! "        D                    3D             4D \n",
  chars! "  BASIS/ORB.ENERGY       -7.7537018     -0.5768903\n",
  chars! "              CUSP        0.9999989      0.9999287\n",
  chars! "  3D       39.278830      0.0024778     -0.0005023\n",
  chars! "  4D       31.447784      0.0092284     -0.0018692\n",
  chars! "  4D       19.678245      0.0252233     -0.0039917\n",
  chars! "  3D       12.159796      0.3525257     -0.0979810\n",
  chars! "  4D       10.898047      0.1835480     -0.0437676\n",
  chars! "  4D        8.338689      0.3667411     -0.1032314\n",
  chars! "  4D        5.968890      0.1714300     -0.1068578\n",
  chars! "  3D        3.563894      0.0192532      0.1772681\n",
  chars! "  3D        2.122982     -0.0004612      0.4789263\n",
  chars! "  3D        1.322001      0.0003320      0.4839674\n",
  chars! "  3D        0.942815     -0.0000739      0.0285444\n",
  chars! "\n"]⟩

theorem cation_zr_ok : cation_zr.ok = true := by decide +kernel

/-- `data/cation/nb`. -/
noncomputable def cation_nb : DataFile := ⟨41, .cation, [
  chars! "      NIOBIUM+   K(2)L(8)M(18)4S(2)4P(6)5S(0)4D(4), 5D                                \n",
  chars! "\n",
  chars! "\n",
  chars! "\n",
  chars! "\n",
  chars! "   E = -3753.389511414\n",
  chars! "   T =  3753.389509791     V = -7506.779021205     V/T =    -2.000000000\n",
  chars! "\n",
  chars! "  ORBITAL ENERGIES AND EXPANSION COEFFICIENTS\n",
  chars! "        S                    1S             2S             3S             4S \n",
  chars! "  BASIS/ORB.ENERGY     -685.6802449    -97.2078846    -17.4801162     -2.7719588\n",
  chars! "              CUSP        1.0001058      0.9999211      0.9997704      0.9998373\n",
  chars! "  2S       70.434246      0.1290034     -0.0704899      0.0324561     -0.0126018\n",
  chars! "  3S       62.938555      0.1178289     -0.0628696      0.0286478     -0.0111344\n",
  chars! "  1S       53.062101      0.6692351     -0.2534954      0.1100880     -0.0423697\n",
  chars! "  3S       48.279886      0.1513710     -0.1021364      0.0497600     -0.0194048\n",
  chars! "  3S       24.843872     -0.0030752      0.4544683     -0.2405728      0.0928315\n",
  chars! "  4S       22.087857     -0.0079037      0.1296247     -0.1750770      0.0729329\n",
  chars! "  4S       14.193982     -0.0065843     -0.0879710     -0.0530059     -0.0189565\n",
  chars! "  3S        9.738431     -0.0026120     -0.1309517      1.0722493     -0.4519600\n",
  chars! "  4S        8.235779     -0.0007804     -0.0027199      0.3029841     -0.3984411\n",
  chars! "  1S        7.847702      0.0247742      0.7029101     -0.3657820      0.1444695\n",
  chars! "  3S        5.162961      0.0003054     -0.0004198      0.0265299      0.0987393\n",
  chars! "  3S        3.580662     -0.0001080      0.0000481     -0.0001361      0.8270712\n",
  chars! "  3S        2.594787      0.0000307     -0.0000444      0.0008765      0.3623462\n",
  chars! "  2S        1.040300     -0.0000025      0.0000026     -0.0000137      0.0013187\n",
  chars! "        P                    2P             3P             4P \n",
  chars! "  BASIS/ORB.ENERGY      -89.0570389    -14.3155872     -1.7968163\n",
  chars! "              CUSP        1.0009776      0.9997991      1.0001769\n",
  chars! "  2P       65.199713     -0.0037213      0.0026759     -0.0011827\n",
  chars! "  3P       52.729978     -0.0087380      0.0062071     -0.0027560\n",
  chars! "  2P       29.992350      0.3438854     -0.1550368      0.0554267\n",
  chars! "  3P       24.612792      0.3806738     -0.1400630      0.0397553\n",
  chars! "  3P       18.951711      0.2723413     -0.2628129      0.1252819\n",
  chars! "  3P       15.376183      0.0969914      0.0735162     -0.0705262\n",
  chars! "  3P        9.020173      0.0037839      0.7184633     -0.2424240\n",
  chars! "  3P        6.686836     -0.0003819      0.3749154     -0.4528530\n",
  chars! "  3P        3.457967      0.0000462      0.0060668      0.3691760\n",
  chars! "  2P        2.063821     -0.0000594     -0.0011629      0.8678025\n",
  chars! "  2P        1.040300      0.0000045      0.0001696      0.0062725\n",
  chars! "        D                    3D             4D \n",
  chars! "  BASIS/ORB.ENERGY       -8.5640887     -0.5411119\n",
  chars! "              CUSP        0.9999991      0.9999591\n",
  chars! "  3D       40.650074      0.0025565     -0.0005228\n",
  chars! "  4D       32.437413      0.0098231     -0.0020073\n",
  chars! "  4D       20.078925      0.0290402     -0.0046669\n",
  chars! "  3D       12.080830      0.3991230     -0.1137232\n",
  chars! "  4D       10.464042      0.2007647     -0.0412890\n",
  chars! "  4D        8.390534      0.3207356     -0.1067723\n",
  chars! "  4D        6.101120      0.1514425     -0.0794418\n",
  chars! "  3D        3.367428      0.0105147      0.2495784\n",
  chars! "  3D        2.075086     -0.0005552      0.4717170\n",
  chars! "  3D        1.323833      0.0003321      0.3803110\n",
  chars! "  3D        1.040300     -0.0000832      0.0671058\n",
  chars! "\n"]⟩

theorem cation_nb_ok : cation_nb.ok = true := by decide +kernel

/-- `data/cation/mo`. -/
noncomputable def cation_mo : DataFile := ⟨42, .cation, [
  chars! "      MOLYBDENUM+   K(2)L(8)M(18)4S(2)4P(6)5S(0)4D(5), 6S                             \n",
  chars! "\n",
  chars! "\n",
  chars! "\n",
  chars! "\n",
  chars! "   E = -3975.333700239\n",
  chars! "   T =  3975.333703157     V = -7950.667403396     V/T =    -1.999999999\n",
  chars! "\n",
  chars! "  ORBITAL ENERGIES AND EXPANSION COEFFICIENTS\n",
  chars! "        S                    1S             2S             3S             4S \n",
  chars! "  BASIS/ORB.ENERGY     -721.4502631   -103.0953847    -18.8294494     -3.0098389\n",
  chars! "              CUSP        1.0001136      1.0000200      0.9998395      0.9997276\n",
  chars! "  2S       70.316851      0.2428114      0.1075843      0.0559522     -0.0232348\n",
  chars! "  3S       64.120950      0.1669316      0.0734835      0.0381921     -0.0158374\n",
  chars! "  1S       63.625487      0.5297067      0.1689908      0.0711541     -0.0277235\n",
  chars! "  3S       49.808698      0.1580516      0.1128272      0.0697926     -0.0302564\n",
  chars! "  3S       34.252894      0.0079361      0.0092148      0.0972063     -0.0516256\n",
  chars! "  4S       29.656433     -0.0002918     -0.0919812      0.0153991     -0.0158612\n",
  chars! "  2S       17.266950     -0.0000888     -1.0075960     -0.7804026      0.3519734\n",
  chars! "  3S       11.512370      0.0002968     -0.0382176      0.0482299     -0.1126817\n",
  chars! "  3S        9.035370      0.0010566     -0.0127073      0.1961093     -1.0471199\n",
  chars! "  4S        8.397517      0.0015077     -0.0368389     -0.6079659     -0.8304720\n",
  chars! "  3S        7.658879     -0.0027904      0.0632866      1.5213946      1.1652563\n",
  chars! "  3S        3.832086      0.0000216     -0.0000940      0.0036936      0.8502204\n",
  chars! "  3S        2.741544     -0.0000066      0.0000671      0.0003928      0.3948471\n",
  chars! "  2S        1.104770      0.0000007     -0.0000048      0.0000160      0.0015481\n",
  chars! "        P                    2P             3P             4P \n",
  chars! "  BASIS/ORB.ENERGY      -94.6897694    -15.5326299     -1.9759108\n",
  chars! "              CUSP        1.0009735      0.9997907      1.0001280\n",
  chars! "  2P       67.334203     -0.0032884      0.0025950     -0.0012358\n",
  chars! "  3P       54.308953     -0.0078800      0.0061310     -0.0029311\n",
  chars! "  2P       30.593445      0.3463326     -0.1583131      0.0582957\n",
  chars! "  3P       25.228887      0.3724033     -0.1291347      0.0330569\n",
  chars! "  3P       20.008098      0.2227741     -0.2498777      0.1324464\n",
  chars! "  3P       16.554814      0.1494521      0.0363409     -0.0622980\n",
  chars! "  3P        9.387916      0.0052286      0.7165948     -0.2454491\n",
  chars! "  3P        6.998049     -0.0009241      0.3887461     -0.4794905\n",
  chars! "  3P        3.663438      0.0001639      0.0067935      0.3803921\n",
  chars! "  2P        2.173314     -0.0001437     -0.0012075      0.8696801\n",
  chars! "  2P        1.104770      0.0000154      0.0001964      0.0067032\n",
  chars! "        D                    3D             4D \n",
  chars! "  BASIS/ORB.ENERGY       -9.5309348     -0.6102579\n",
  chars! "              CUSP        1.0001713      0.9999581\n",
  chars! "  3D       41.841533      0.0023119     -0.0004590\n",
  chars! "  4D       33.283867      0.0090703     -0.0017933\n",
  chars! "  4D       20.477569      0.0251736     -0.0031474\n",
  chars! "  3D       12.828420      0.3791761     -0.1168373\n",
  chars! "  4D       10.862802      0.2660570     -0.0629910\n",
  chars! "  4D        8.442859      0.3089784     -0.1175010\n",
  chars! "  4D        6.230335      0.1226452     -0.0716590\n",
  chars! "  3D        3.541145      0.0084224      0.2787089\n",
  chars! "  3D        2.200444     -0.0003599      0.4872541\n",
  chars! "  3D        1.415655      0.0001642      0.3562264\n",
  chars! "  3D        1.104770     -0.0000602      0.0533408\n",
  chars! "\n"]⟩

theorem cation_mo_ok : cation_mo.ok = true := by decide +kernel

/-- `data/cation/tc`. -/
noncomputable def cation_tc : DataFile := ⟨43, .cation, [
  chars! "      TECHNETIUM+   K(2)L(8)M(18)4S(2)4P(6)5S(1)4D(5), 7S                             \n",
  chars! "\n",
  chars! "\n",
  chars! "\n",
  chars! "\n",
  chars! "   E = -4204.594355021\n",
  chars! "   T =  4204.594349640     V = -8409.188704661     V/T =    -2.000000001\n",
  chars! "\n",
  chars! "  ORBITAL ENERGIES AND EXPANSION COEFFICIENTS\n",
  chars! "        S                    1S             2S             3S             4S             5S \n",
  chars! "  BASIS/ORB.ENERGY     -758.3069709   -109.3327551    -20.3942288     -3.4125962     -0.5098328\n",
  chars! "              CUSP        1.0003105      1.0001525      1.0003655      1.0007209      1.0006528\n",
  chars! "  2S       63.459187      0.0236719     -0.0483387      0.0236122     -0.0102169      0.0032264\n",
  chars! "  3S       54.494318      0.0362553     -0.0668604      0.0331445     -0.0145461      0.0045900\n",
  chars! "  1S       44.883169      0.9264112     -0.2961286      0.1255338     -0.0501783      0.0155741\n",
  chars! "  4S       32.396317     -0.0307091      0.1372237     -0.0679702      0.0287014     -0.0091541\n",
  chars! "  4S       23.922921     -0.0117065      0.1717360     -0.1497605      0.0880150     -0.0293672\n",
  chars! "  2S       21.266159      0.0691396      0.4551932     -0.1821582      0.1139048     -0.0391077\n",
  chars! "  2S       15.024147     -0.0016270      0.3565580     -0.2921268      0.0238320      0.0022333\n",
  chars! "  3S        9.711884      0.0004401     -0.0011032      0.9120836     -0.3681955      0.1114915\n",
  chars! "  3S        7.457529     -0.0003527      0.0016908      0.3013310     -0.7526050      0.2950714\n",
  chars! "  4S        3.319045     -0.0001386      0.0005443     -0.0025622     -0.1628207     -0.0070789\n",
  chars! "  2S        2.782002      0.0001768     -0.0008705      0.0082201      1.6233489     -0.7981527\n",
  chars! "  3S        1.967616      0.0000923     -0.0002815      0.0004739      0.0052523     -0.3499030\n",
  chars! "  2S        1.010253     -0.0000792      0.0002209     -0.0003649     -0.0055635      1.4187924\n",
  chars! "  3S        1.009785      0.0000334     -0.0000989      0.0001441     -0.0001872      0.0752041\n",
  chars! "        P                    2P             3P             4P \n",
  chars! "  BASIS/ORB.ENERGY     -100.6694132    -16.9624749     -2.3028127\n",
  chars! "              CUSP        1.0009989      0.9997485      0.9999968\n",
  chars! "  2P       67.772730     -0.0040050      0.0032859     -0.0016951\n",
  chars! "  3P       55.044142     -0.0091336      0.0073964     -0.0038277\n",
  chars! "  2P       31.433532      0.3484572     -0.1625861      0.0626702\n",
  chars! "  3P       25.888684      0.3512090     -0.0962222      0.0112120\n",
  chars! "  3P       22.027894      0.1627990     -0.2176192      0.1316264\n",
  chars! "  3P       17.679727      0.2293541     -0.0440209     -0.0287739\n",
  chars! "  3P        9.789992      0.0059663      0.7081094     -0.2503335\n",
  chars! "  3P        7.317539     -0.0010867      0.4107727     -0.5074785\n",
  chars! "  3P        3.784492      0.0001524      0.0073977      0.4202982\n",
  chars! "  2P        2.316428     -0.0001351     -0.0016141      0.8439390\n",
  chars! "  2P        1.009785      0.0000102      0.0001247      0.0045077\n",
  chars! "        D                    3D             4D \n",
  chars! "  BASIS/ORB.ENERGY      -10.7077006     -0.8087252\n",
  chars! "              CUSP        1.0000124      0.9992094\n",
  chars! "  3D       43.402296      0.0021140     -0.0004487\n",
  chars! "  4D       34.449464      0.0084309     -0.0017880\n",
  chars! "  4D       21.222767      0.0224561     -0.0027313\n",
  chars! "  3D       13.210700      0.3910834     -0.1324984\n",
  chars! "  4D       11.054045      0.2796358     -0.0728155\n",
  chars! "  4D        8.765156      0.2781394     -0.1238812\n",
  chars! "  4D        6.597644      0.1264591     -0.0826318\n",
  chars! "  3D        3.852519      0.0094279      0.2762275\n",
  chars! "  3D        2.437104     -0.0002445      0.5334157\n",
  chars! "  3D        1.563023      0.0000699      0.3622873\n",
  chars! "  3D        1.009785     -0.0000092      0.0072198\n",
  chars! "\n"]⟩

theorem cation_tc_ok : cation_tc.ok = true := by decide +kernel

/-- `data/cation/ru`. -/
noncomputable def cation_ru : DataFile := ⟨44, .cation, [
  chars! "      RUTHENIUM+   K(2)L(8)M(18)4S(2)4P(6)5S(0)4D(7), 4F                              \n",
  chars! "\n",
  chars! "\n",
  chars! "\n",
  chars! "\n",
  chars! "   E = -4441.321952305\n",
  chars! "   T =  4441.321950672     V = -8882.643902977     V/T =    -2.000000000\n",
  chars! "\n",
  chars! "  ORBITAL ENERGIES AND EXPANSION COEFFICIENTS\n",
  chars! "        S                    1S             2S             3S             4S \n",
  chars! "  BASIS/ORB.ENERGY     -795.7785916   -115.4209863    -21.6762130     -3.5214561\n",
  chars! "              CUSP        1.0001641      1.0000661      1.0000633      1.0001997\n",
  chars! "  2S       69.167117      0.1791679      0.1232829      0.0542101     -0.0206093\n",
  chars! "  3S       62.279945      0.1480122      0.1019294      0.0446273     -0.0170118\n",
  chars! "  1S       58.825221      0.6392339      0.2047137      0.0872987     -0.0350962\n",
  chars! "  3S       47.281849      0.0968192      0.1686445      0.0775141     -0.0283774\n",
  chars! "  3S       32.223937     -0.1003045      0.2730322      0.0836706     -0.0232034\n",
  chars! "  4S       24.884214     -0.0723659      0.1754813     -0.0487716      0.0207137\n",
  chars! "  2S       19.006287      0.1736176     -1.6089906     -0.7274971      0.2561544\n",
  chars! "  4S       16.362574     -0.0118142     -0.0191037     -0.0568524     -0.0968665\n",
  chars! "  3S       11.204522      0.0115280     -0.0050933      0.5378679      0.0446249\n",
  chars! "  4S       11.202035     -0.0048459      0.0008659      0.2447690     -0.2330848\n",
  chars! "  3S        8.027154      0.0006163     -0.0001650      0.4602255     -0.6621862\n",
  chars! "  3S        4.223517     -0.0000265      0.0001837      0.0056119      0.5327631\n",
  chars! "  2S        2.734310      0.0000143     -0.0000222      0.0002202      0.8273787\n",
  chars! "  2S        1.167416     -0.0000006      0.0000029      0.0000512      0.0014500\n",
  chars! "        P                    2P             3P             4P \n",
  chars! "  BASIS/ORB.ENERGY     -106.5023968    -18.1121170     -2.3701291\n",
  chars! "              CUSP        1.0007378      0.9996318      0.9999292\n",
  chars! "  2P       69.428903     -0.0045575      0.0036738     -0.0019418\n",
  chars! "  3P       56.654105     -0.0099379      0.0079666     -0.0042299\n",
  chars! "  2P       32.958018      0.3326425     -0.1570746      0.0615651\n",
  chars! "  3P       27.420208      0.2991799     -0.0846934      0.0103489\n",
  chars! "  3P       23.034579      0.2394590     -0.2252312      0.1271941\n",
  chars! "  3P       18.098323      0.2232088     -0.0648898     -0.0160576\n",
  chars! "  3P       10.126508      0.0058703      0.7031403     -0.2431654\n",
  chars! "  3P        7.633018     -0.0011210      0.4205376     -0.5306555\n",
  chars! "  3P        4.046388      0.0001290      0.0084384      0.4079783\n",
  chars! "  2P        2.387330     -0.0001297     -0.0013621      0.8641498\n",
  chars! "  2P        1.167416      0.0000105      0.0002325      0.0068259\n",
  chars! "        D                    3D             4D \n",
  chars! "  BASIS/ORB.ENERGY      -11.6072558     -0.6814305\n",
  chars! "              CUSP        0.9999982      0.9999416\n",
  chars! "  3D       43.919269      0.0024453     -0.0005226\n",
  chars! "  4D       35.195776      0.0091216     -0.0019431\n",
  chars! "  4D       21.834796      0.0274107     -0.0039495\n",
  chars! "  3D       13.398607      0.4012721     -0.1363980\n",
  chars! "  4D       11.367159      0.2630635     -0.0608944\n",
  chars! "  4D        9.051785      0.2932569     -0.1420706\n",
  chars! "  4D        6.719894      0.1116493     -0.0548364\n",
  chars! "  3D        3.829794      0.0059421      0.3354492\n",
  chars! "  3D        2.413988      0.0003510      0.4785517\n",
  chars! "  3D        1.540748      0.0001443      0.3262991\n",
  chars! "  3D        1.167416      0.0000460      0.0456467\n",
  chars! "\n"]⟩

theorem cation_ru_ok : cation_ru.ok = true := by decide +kernel

/-- `data/cation/rh`. -/
noncomputable def cation_rh : DataFile := ⟨45, .cation, [
  chars! "      RHODIUM+   K(2)L(8)M(18)4S(2)4P(6)5S(0)4D(8), 3F                                \n",
  chars! "\n",
  chars! "\n",
  chars! "\n",
  chars! "\n",
  chars! "   E = -4685.664166697\n",
  chars! "   T =  4685.664162208     V = -9371.328328905     V/T =    -2.000000001\n",
  chars! "\n",
  chars! "  ORBITAL ENERGIES AND EXPANSION COEFFICIENTS\n",
  chars! "        S                    1S             2S             3S             4S \n",
  chars! "  BASIS/ORB.ENERGY     -834.3119940   -121.8334278    -23.1495216     -3.7757058\n",
  chars! "              CUSP        1.0000957      1.0001282      1.0000760      0.9997372\n",
  chars! "  2S       75.823917      0.1071012     -0.0449481      0.0209247     -0.0092449\n",
  chars! "  3S       67.136931      0.1086305     -0.0449612      0.0207145     -0.0089484\n",
  chars! "  1S       59.033655      0.6578003     -0.2110404      0.0905210     -0.0368527\n",
  chars! "  4S       44.128347     -0.0853189      0.0640321     -0.0372273      0.0202779\n",
  chars! "  2S       32.577254      0.4541279     -0.0045013     -0.2116931      0.1937841\n",
  chars! "  2S       26.722176     -0.2336741     -0.0130796      0.3338979     -0.3027790\n",
  chars! "  3S       26.701689      0.0498724      0.6072363     -0.4445570      0.2620081\n",
  chars! "  3S       19.404845     -0.0012238      0.3892791     -0.3220519      0.1230201\n",
  chars! "  3S       10.124838      0.0000119      0.0104256      1.0094401     -0.2871978\n",
  chars! "  3S        7.383255     -0.0000255     -0.0065134      0.2256024     -0.8202565\n",
  chars! "  4S        7.377173      0.0000114      0.0026522     -0.0193837      0.3925951\n",
  chars! "  3S        4.176825      0.0000037     -0.0003493      0.0028580      0.8845411\n",
  chars! "  3S        3.009481     -0.0000007      0.0000600      0.0005811      0.3109005\n",
  chars! "  2S        1.204957      0.0000001     -0.0000057      0.0000010      0.0011770\n",
  chars! "        P                    2P             3P             4P \n",
  chars! "  BASIS/ORB.ENERGY     -112.6567248    -19.4504794     -2.5671356\n",
  chars! "              CUSP        1.0009623      0.9995205      0.9993488\n",
  chars! "  2P       71.413902     -0.0046486      0.0037822     -0.0020453\n",
  chars! "  3P       58.292587     -0.0101311      0.0081678     -0.0044258\n",
  chars! "  2P       33.909267      0.3298160     -0.1572347      0.0627652\n",
  chars! "  3P       28.554803      0.2440335     -0.0585198     -0.0003663\n",
  chars! "  3P       24.386089      0.2846288     -0.2344154      0.1288607\n",
  chars! "  3P       18.626594      0.2367650     -0.0921999     -0.0002297\n",
  chars! "  3P       10.451995      0.0049117      0.7075393     -0.2478958\n",
  chars! "  3P        7.915398     -0.0006557      0.4221176     -0.5507291\n",
  chars! "  3P        4.257851     -0.0000520      0.0088603      0.4114183\n",
  chars! "  2P        2.495199     -0.0000224     -0.0011526      0.8739274\n",
  chars! "  2P        1.204957     -0.0000047      0.0002251      0.0069339\n",
  chars! "        D                    3D             4D \n",
  chars! "  BASIS/ORB.ENERGY      -12.6926771     -0.7259604\n",
  chars! "              CUSP        1.0008953      0.9990116\n",
  chars! "  3D       45.122514      0.0027216     -0.0005770\n",
  chars! "  4D       36.167790      0.0101854     -0.0021640\n",
  chars! "  4D       22.243792      0.0352336     -0.0051951\n",
  chars! "  3D       13.619067      0.4024365     -0.1456529\n",
  chars! "  4D       11.800818      0.2370888     -0.0459645\n",
  chars! "  4D        9.470982      0.3083209     -0.1634305\n",
  chars! "  4D        6.973715      0.1108499     -0.0402472\n",
  chars! "  3D        3.912689      0.0045969      0.3670030\n",
  chars! "  3D        2.482661      0.0007399      0.4704867\n",
  chars! "  3D        1.589713      0.0000766      0.3057563\n",
  chars! "  3D        1.204957      0.0001085      0.0377505\n",
  chars! "\n"]⟩

theorem cation_rh_ok : cation_rh.ok = true := by decide +kernel

/-- `data/cation/pd`. -/
noncomputable def cation_pd : DataFile := ⟨46, .cation, [
  chars! "      PALLADIUM+   K(2)L(8)M(18)4S(2)4P(6)5S(0)4D(9), 2D                              \n",
  chars! "\n",
  chars! "\n",
  chars! "\n",
  chars! "\n",
  chars! "   E = -4937.675923704\n",
  chars! "   T =  4937.675927723     V = -9875.351851427     V/T =    -1.999999999\n",
  chars! "\n",
  chars! "  ORBITAL ENERGIES AND EXPANSION COEFFICIENTS\n",
  chars! "        S                    1S             2S             3S             4S \n",
  chars! "  BASIS/ORB.ENERGY     -873.7607586   -128.4148945    -24.6589136     -4.0314379\n",
  chars! "              CUSP        1.0000997      0.9999649      0.9999500      0.9997717\n",
  chars! "  2S       77.029845      0.2018204     -0.0970988      0.0500081     -0.0214682\n",
  chars! "  3S       69.840091      0.1537354     -0.0726376      0.0375038     -0.0160120\n",
  chars! "  1S       65.668391      0.5795954     -0.1862663      0.0803352     -0.0330746\n",
  chars! "  3S       54.310004      0.1546098     -0.1141952      0.0639958     -0.0282879\n",
  chars! "  3S       38.997941      0.0067230     -0.0228669      0.0791030     -0.0420370\n",
  chars! "  4S       32.710801      0.0027647      0.0825778      0.0245298     -0.0243930\n",
  chars! "  2S       19.272829     -0.0033387      1.0300181     -0.7038575      0.3099391\n",
  chars! "  4S       18.835602      0.0033351      0.0115603      0.1983130     -0.1549859\n",
  chars! "  3S       13.463015     -0.0043117      0.0188292     -0.1920318      0.2187004\n",
  chars! "  4S       12.999127      0.0016088     -0.0026725      0.5880246     -0.2442546\n",
  chars! "  3S        8.737583     -0.0002634      0.0004227      0.5696696     -0.8014019\n",
  chars! "  3S        4.594464      0.0000391     -0.0002288      0.0067751      0.5353046\n",
  chars! "  2S        2.953575     -0.0000210      0.0000387      0.0001840      0.8457249\n",
  chars! "  2S        1.242716      0.0000013     -0.0000040      0.0000600      0.0016595\n",
  chars! "        P                    2P             3P             4P \n",
  chars! "  BASIS/ORB.ENERGY     -118.9790007    -20.8240609     -2.7662166\n",
  chars! "              CUSP        1.0009239      1.0000026      0.9999631\n",
  chars! "  2P       67.203163     -0.0103460      0.0094480     -0.0056890\n",
  chars! "  3P       56.595033     -0.0177789      0.0162023     -0.0097711\n",
  chars! "  2P       35.847961      0.3264580     -0.1689295      0.0740768\n",
  chars! "  3P       31.249077      0.0987869      0.0176015     -0.0363091\n",
  chars! "  3P       26.841348      0.3963705     -0.2734691      0.1456666\n",
  chars! "  3P       19.603644      0.2860596     -0.1405867      0.0242189\n",
  chars! "  3P       10.803310      0.0073168      0.7019128     -0.2483983\n",
  chars! "  3P        8.224438     -0.0017500      0.4334627     -0.5705612\n",
  chars! "  3P        4.449596      0.0001995      0.0097966      0.4142719\n",
  chars! "  2P        2.601753     -0.0001796     -0.0012499      0.8796408\n",
  chars! "  2P        1.242716      0.0000143      0.0002474      0.0074480\n",
  chars! "        D                    3D             4D \n",
  chars! "  BASIS/ORB.ENERGY      -13.8122786     -0.7721714\n",
  chars! "              CUSP        1.0001024      0.9990278\n",
  chars! "  3D       46.454482      0.0025833     -0.0005500\n",
  chars! "  4D       37.217129      0.0097341     -0.0020708\n",
  chars! "  4D       22.854553      0.0335069     -0.0047590\n",
  chars! "  3D       14.037836      0.4078367     -0.1523392\n",
  chars! "  4D       11.992854      0.2570812     -0.0490615\n",
  chars! "  4D        9.829564      0.2709085     -0.1660975\n",
  chars! "  4D        7.410295      0.1207242     -0.0360650\n",
  chars! "  3D        4.055826      0.0067498      0.3893690\n",
  chars! "  3D        2.560909      0.0002826      0.4753941\n",
  chars! "  3D        1.630550      0.0005217      0.2870992\n",
  chars! "  3D        1.242716     -0.0000039      0.0292005\n",
  chars! "\n"]⟩

theorem cation_pd_ok : cation_pd.ok = true := by decide +kernel

/-- `data/cation/ag`. -/
noncomputable def cation_ag : DataFile := ⟨47, .cation, [
  chars! "      SILVER+   K(2)L(8)M(18)4S(2)4P(6)5S(0)4D(10), 1S                                \n",
  chars! "\n",
  chars! "\n",
  chars! "\n",
  chars! "   E = -5197.481328160\n",
  chars! "   T =  5197.481329747     V =-10394.962657907     V/T =    -2.000000000\n",
  chars! "\n",
  chars! "  ORBITAL ENERGIES AND EXPANSION COEFFICIENTS\n",
  chars! "        S                    1S             2S             3S             4S \n",
  chars! "  BASIS/ORB.ENERGY     -914.1208052   -135.1612318    -26.2007539     -4.2860603\n",
  chars! "              CUSP        1.0000380      1.0001164      1.0000342      0.9998109\n",
  chars! "  1S       96.205766     -0.3376442      0.1086918      0.0471120     -0.0222314\n",
  chars! "  2S       92.007782     -0.0857809      0.0268566      0.0117398     -0.0055849\n",
  chars! "  2S       69.316325     -0.5008874      0.2053896      0.0909734     -0.0431802\n",
  chars! "  3S       58.276640     -0.1699084      0.1182025      0.0557643     -0.0271832\n",
  chars! "  4S       37.009771      0.0127512     -0.0504422     -0.0130550      0.0033385\n",
  chars! "  4S       31.058364      0.0096268     -0.1351971     -0.0811930      0.0420014\n",
  chars! "  2S       25.210376     -0.0472836     -0.5191002     -0.2828634      0.1416154\n",
  chars! "  3S       20.931374      0.0025700     -0.4343667     -0.4314174      0.2702443\n",
  chars! "  3S       12.923312     -0.0003137     -0.0159702      0.2386286      0.3210625\n",
  chars! "  4S       12.019269      0.0002702      0.0023666      0.4161500     -0.1154766\n",
  chars! "  2S        7.600018     -0.0001834     -0.0002726      0.6169098     -1.7400495\n",
  chars! "  2S        3.561582      0.0000255      0.0002857      0.0022902      1.0643406\n",
  chars! "  1S        2.418015     -0.0000268     -0.0001337      0.0022665      0.6623517\n",
  chars! "  2S        1.284773      0.0000007      0.0000029     -0.0000292      0.0000744\n",
  chars! "        P                    2P             3P             4P \n",
  chars! "  BASIS/ORB.ENERGY     -125.4650845    -22.2292242     -2.9648891\n",
  chars! "              CUSP        1.0004797      1.0001386      1.0000198\n",
  chars! "  2P       46.559221      0.0097705      0.0394441     -0.0279194\n",
  chars! "  3P       41.455427      0.0359924      0.0790464     -0.0544000\n",
  chars! "  4P       35.819990      0.0397502      0.0725368     -0.0497524\n",
  chars! "  2P       23.244138     -0.9205467     -0.6129768      0.3012743\n",
  chars! "  3P       19.003003     -0.1879899     -0.0734110     -0.0221252\n",
  chars! "  3P       10.859053     -0.0026539      0.7816821     -0.3215567\n",
  chars! "  3P        8.310115     -0.0004771      0.3350763     -0.6653775\n",
  chars! "  2P        4.850725      0.0008558      0.0213847      0.0392216\n",
  chars! "  2P        3.372303     -0.0003739     -0.0005927      0.9617731\n",
  chars! "  2P        2.438419      0.0001694      0.0011472      0.4334011\n",
  chars! "  2P        1.284773     -0.0000112     -0.0000017      0.0027405\n",
  chars! "        D                    3D             4D \n",
  chars! "  BASIS/ORB.ENERGY      -14.9624107     -0.8253207\n",
  chars! "              CUSP        1.0009104      0.9997499\n",
  chars! "  3D       47.563072      0.0026889     -0.0005740\n",
  chars! "  4D       38.124644      0.0100888     -0.0021493\n",
  chars! "  4D       23.402528      0.0361618     -0.0052381\n",
  chars! "  3D       14.295548      0.4167390     -0.1608625\n",
  chars! "  4D       12.300093      0.2373092     -0.0337440\n",
  chars! "  4D       10.273766      0.2746241     -0.1832996\n",
  chars! "  4D        7.691333      0.1236067     -0.0286646\n",
  chars! "  3D        4.178313      0.0050200      0.4128593\n",
  chars! "  3D        2.645050      0.0000264      0.4652739\n",
  chars! "  3D        1.700613     -0.0000600      0.2726433\n",
  chars! "  3D        1.284773      0.0000366      0.0285072\n",
  chars! "\n"]⟩

theorem cation_ag_ok : cation_ag.ok = true := by decide +kernel

/-- `data/cation/cd`. -/
noncomputable def cation_cd : DataFile := ⟨48, .cation, [
  chars! "      CADMIUM+   K(2)L(8)M(18)4S(2)4P(6)5S(1)4D(10), 2S                               \n",
  chars! "\n",
  chars! "\n",
  chars! "\n",
  chars! "\n",
  chars! "   E = -5464.878604577\n",
  chars! "   T =  5464.878604622     V =-10929.757209199     V/T =    -2.000000000\n",
  chars! "\n",
  chars! "  ORBITAL ENERGIES AND EXPANSION COEFFICIENTS\n",
  chars! "        S                    1S             2S             3S             4S             5S \n",
  chars! "  BASIS/ORB.ENERGY     -955.6180274   -142.3073771    -28.0090625     -4.7513351     -0.5483349\n",
  chars! "              CUSP        1.0001230      0.9998528      0.9996974      1.0004908      1.0007130\n",
  chars! "  2S       83.241314     -0.0811541      0.0570071      0.0236004     -0.0055631      0.0008701\n",
  chars! "  3S       74.097257     -0.0773673      0.0527000      0.0212958     -0.0051236      0.0008094\n",
  chars! "  1S       57.013483     -0.7640362      0.2488285      0.0759775     -0.0159578      0.0022237\n",
  chars! "  3S       56.271343     -0.1286896      0.1089940      0.0499728     -0.0119079      0.0019371\n",
  chars! "  3S       37.173267     -0.0079223      0.0371403      0.0798285     -0.0298952      0.0068381\n",
  chars! "  4S       35.081552      0.0018591     -0.0866111     -0.0014448     -0.0071460      0.0030443\n",
  chars! "  2S       20.121467     -0.0009174     -1.0207322     -1.0684982      0.6089006     -0.1830231\n",
  chars! "  4S       13.161690     -0.0000772      0.0083822      0.5290895     -0.3085116      0.0890768\n",
  chars! "  4S       10.128010     -0.0000735      0.0099951      0.1788734     -0.4956554      0.1813758\n",
  chars! "  1S        6.928708      0.0004519     -0.0590514      0.7400275     -0.6916589      0.2924009\n",
  chars! "  2S        3.638910     -0.0000123      0.0011059      0.0060670      1.4790337     -0.3264096\n",
  chars! "  2S        2.408334      0.0000082     -0.0008453     -0.0009327      0.0869634     -0.0459377\n",
  chars! "  1S        1.385266     -0.0000055      0.0005878      0.0005805     -0.0105546     -0.6097235\n",
  chars! "  2S        1.047220      0.0000006     -0.0000643     -0.0000650      0.0012931      1.4029963\n",
  chars! "        P                    2P             3P             4P \n",
  chars! "  BASIS/ORB.ENERGY     -132.3482058    -23.8984936     -3.3571296\n",
  chars! "              CUSP        1.0008785      1.0004704      1.0009542\n",
  chars! "  2P       45.590143      0.0930886      0.1233108     -0.0816099\n",
  chars! "  3P       40.452978      0.1822696      0.2239033     -0.1466644\n",
  chars! "  4P       35.227058      0.1367408      0.1667356     -0.1090997\n",
  chars! "  2P       24.560040     -1.2344683     -0.9822888      0.5897455\n",
  chars! "  3P       18.494253     -0.1942605     -0.1244708      0.0959116\n",
  chars! "  3P       13.375523      0.0258144      0.1402810      0.2344330\n",
  chars! "  4P       12.492308     -0.0121504      0.2932974     -0.0489109\n",
  chars! "  2P        7.727315      0.0049171      0.7745982     -1.2885544\n",
  chars! "  2P        3.469794     -0.0001556      0.0050509      1.0973628\n",
  chars! "  2P        2.496341      0.0001252     -0.0001734      0.3406406\n",
  chars! "  2P        1.047220     -0.0000083      0.0000184      0.0009110\n",
  chars! "        D                    3D             4D \n",
  chars! "  BASIS/ORB.ENERGY      -16.3735959     -1.0664347\n",
  chars! "              CUSP        1.0008939      0.9993768\n",
  chars! "  3D       48.197499      0.0030242     -0.0006672\n",
  chars! "  4D       38.917760      0.0107823     -0.0023771\n",
  chars! "  4D       23.971606      0.0418654     -0.0065555\n",
  chars! "  3D       14.574248      0.4139823     -0.1724647\n",
  chars! "  4D       12.816805      0.2229933     -0.0268978\n",
  chars! "  4D       10.561976      0.2944709     -0.2084554\n",
  chars! "  4D        7.894193      0.1127872     -0.0079414\n",
  chars! "  3D        4.252198      0.0048100      0.4528905\n",
  chars! "  3D        2.707643     -0.0003696      0.4862047\n",
  chars! "  3D        1.782312      0.0001149      0.2195409\n",
  chars! "  3D        1.047220     -0.0000185      0.0012032\n",
  chars! "\n"]⟩

theorem cation_cd_ok : cation_cd.ok = true := by decide +kernel

/-- `data/cation/in`. -/
noncomputable def cation_in : DataFile := ⟨49, .cation, [
  chars! "      INDIUM+   K(2)L(8)M(18)4S(2)4P(6)5S(2)4D(10), 1S                                \n",
  chars! "\n",
  chars! "\n",
  chars! "\n",
  chars! "   E = -5739.978386638\n",
  chars! "   T =  5739.978378069     V =-11479.956764708     V/T =    -2.000000001\n",
  chars! "\n",
  chars! "  ORBITAL ENERGIES AND EXPANSION COEFFICIENTS\n",
  chars! "        S                    1S             2S             3S             4S             5S \n",
  chars! "  BASIS/ORB.ENERGY     -998.0711730   -149.6651800    -29.8941716     -5.2462960     -0.6070548\n",
  chars! "              CUSP        1.0002536      1.0000594      1.0003713      1.0004737      1.0006367\n",
  chars! "  1S       83.933502      0.0225622      0.0424295     -0.0185522      0.0078652     -0.0022556\n",
  chars! "  3S       62.707779     -0.0251208     -0.0419670      0.0188962     -0.0081027      0.0023498\n",
  chars! "  1S       51.070721     -0.9772211     -0.3896011      0.1705401     -0.0728895      0.0209596\n",
  chars! "  4S       37.358361      0.0289174      0.0977759     -0.0316202      0.0111993     -0.0028375\n",
  chars! "  3S       23.825100      0.0272873      0.4128459     -0.4535252      0.1839230     -0.0463873\n",
  chars! "  2S       23.806004     -0.0789229      0.5572575     -0.3896646      0.0450938      0.0162177\n",
  chars! "  3S       16.775088      0.0042432      0.2019082     -0.4212742     -0.2835875      0.1976860\n",
  chars! "  4S       13.128081      0.0033340      0.0475135      0.3027331     -0.3817589      0.1802430\n",
  chars! "  2S       11.146827     -0.0093935     -0.1836872      1.0506147      0.2480278     -0.2569267\n",
  chars! "  3S        9.114307     -0.0004269      0.0003397      0.3833309     -0.8810597      0.2946737\n",
  chars! "  2S        3.788603      0.0000701     -0.0001917      0.0068814      1.5508642     -0.5107810\n",
  chars! "  2S        2.378645     -0.0000366      0.0000283     -0.0006935      0.0521135     -0.4003841\n",
  chars! "  2S        1.102125      0.0000178     -0.0000112      0.0002494     -0.0045131      1.3109940\n",
  chars! "  3S        1.101866     -0.0000095      0.0000058     -0.0001245      0.0020230     -0.0268250\n",
  chars! "        P                    2P             3P             4P \n",
  chars! "  BASIS/ORB.ENERGY     -139.4414968    -25.6432334     -3.7757510\n",
  chars! "              CUSP        1.0009998      1.0001841      1.0002800\n",
  chars! "  2P       47.152308     -0.0909388      0.1064506     -0.0694211\n",
  chars! "  3P       42.226582     -0.1650134      0.1820539     -0.1176530\n",
  chars! "  4P       37.027541     -0.1196953      0.1331028     -0.0861515\n",
  chars! "  2P       25.782094      1.1571852     -0.8648120      0.5183644\n",
  chars! "  3P       20.071104      0.2275821     -0.1736606      0.1336756\n",
  chars! "  4P       12.947974      0.0108207      0.2171920     -0.2111248\n",
  chars! "  3P       12.066104     -0.0116668      0.1747361      0.4518188\n",
  chars! "  2P        8.031651     -0.0024982      0.8160347     -1.3879291\n",
  chars! "  2P        3.549498     -0.0000042      0.0064137      1.2035959\n",
  chars! "  2P        2.552364     -0.0000557     -0.0009129      0.2463270\n",
  chars! "  2P        1.101866      0.0000044      0.0000457      0.0015249\n",
  chars! "        D                    3D             4D \n",
  chars! "  BASIS/ORB.ENERGY      -17.8588009     -1.3319085\n",
  chars! "              CUSP        0.9997608      0.9992638\n",
  chars! "  3D       49.554320      0.0029839     -0.0006588\n",
  chars! "  4D       39.895199      0.0109443     -0.0024032\n",
  chars! "  4D       24.386414      0.0435709     -0.0065789\n",
  chars! "  3D       14.997417      0.4111140     -0.1815204\n",
  chars! "  4D       13.047140      0.2482600     -0.0281663\n",
  chars! "  4D       10.875056      0.2657584     -0.2247243\n",
  chars! "  4D        8.197538      0.1166268      0.0103087\n",
  chars! "  3D        4.314403      0.0037044      0.4968198\n",
  chars! "  3D        2.790643     -0.0001117      0.4819633\n",
  chars! "  3D        1.906550     -0.0000237      0.1642165\n",
  chars! "  3D        1.101866      0.0000110      0.0004534\n",
  chars! "\n"]⟩

theorem cation_in_ok : cation_in.ok = true := by decide +kernel

/-- `data/cation/sn`. -/
noncomputable def cation_sn : DataFile := ⟨50, .cation, [
  chars! "      TIN+   K(2)L(8)M(18)4S(2)4P(6)5S(2)4D(10)5P(1), 2P                              \n",
  chars! "\n",
  chars! "\n",
  chars! "\n",
  chars! "\n",
  chars! "   E = -6022.678320408\n",
  chars! "   T =  6022.678328054     V =-12045.356648462     V/T =    -1.999999999\n",
  chars! "\n",
  chars! "  ORBITAL ENERGIES AND EXPANSION COEFFICIENTS\n",
  chars! "        S                    1S             2S             3S             4S             5S \n",
  chars! "  BASIS/ORB.ENERGY    -1041.5199616   -157.2730218    -31.8940016     -5.8070563     -0.7310146\n",
  chars! "              CUSP        1.0002448      1.0000414      1.0002728      1.0003633      1.0001278\n",
  chars! "  1S       89.536877      0.0124864     -0.0217228     -0.0111344      0.0051986     -0.0015760\n",
  chars! "  3S       64.885326     -0.0182515      0.0271544      0.0144080     -0.0068176      0.0020403\n",
  chars! "  1S       51.871742     -0.9646721      0.3520699      0.1584502     -0.0696419      0.0214149\n",
  chars! "  4S       28.332819     -0.1045612      0.3603999      0.1049425     -0.0272050      0.0088905\n",
  chars! "  2S       27.174333     -0.1091101     -0.1956369     -0.1765178      0.1156790     -0.0379069\n",
  chars! "  3S       24.996281      0.1912018     -1.1417618     -0.6738057      0.3294724     -0.1060458\n",
  chars! "  2S       14.533367     -0.0205536     -0.1009394      0.2762000     -0.3357313      0.1219226\n",
  chars! "  4S       14.317933      0.0045282      0.0077124      0.6536666     -0.4194236      0.1418838\n",
  chars! "  4S       10.981514     -0.0018319     -0.0020932      0.3415724     -0.6369924      0.2447101\n",
  chars! "  4S        5.369886     -0.0007609     -0.0008070     -0.0240446      0.1425117     -0.0369251\n",
  chars! "  2S        3.998462      0.0013557      0.0016930      0.0570387      1.3447357     -0.6256212\n",
  chars! "  3S        3.184758     -0.0000141     -0.0000505     -0.0026985      0.0582806     -0.3312875\n",
  chars! "  2S        1.223362     -0.0000075     -0.0000009      0.0002340     -0.0009480      1.3114588\n",
  chars! "  3S        1.007489      0.0000030      0.0000005     -0.0000763      0.0003428     -0.0021416\n",
  chars! "        P                    2P             3P             4P             5P \n",
  chars! "  BASIS/ORB.ENERGY     -146.7845589    -27.5035075     -4.2624724     -0.5075171\n",
  chars! "              CUSP        1.0009548      0.9999968      0.9996993      1.0009932\n",
  chars! "  2P       87.582417      0.0005289      0.0004188     -0.0002057      0.0000578\n",
  chars! "  4P       54.009271     -0.0067609     -0.0051880      0.0025475     -0.0007482\n",
  chars! "  2P       36.503437     -0.3345510     -0.1548468      0.0614795     -0.0155703\n",
  chars! "  4P       27.647593      0.3463708      0.1291665     -0.0398031      0.0083109\n",
  chars! "  3P       24.869429     -1.0190694     -0.4463481      0.1508946     -0.0341119\n",
  chars! "  4P       21.411776     -0.0459361      0.1510796     -0.1248136      0.0397016\n",
  chars! "  4P       14.436127     -0.0046978      0.6032523     -0.3717340      0.1078247\n",
  chars! "  4P       10.699225      0.0009738      0.3548783     -0.4784763      0.1576803\n",
  chars! "  2P        4.605819     -0.0004984      0.0469112      0.5401031     -0.2588962\n",
  chars! "  3P        4.331595      0.0004422     -0.0150749      0.6591199     -0.1324358\n",
  chars! "  3P        3.215664     -0.0001233      0.0032913      0.2173367     -0.3012657\n",
  chars! "  3P        2.035549      0.0000262     -0.0004414      0.0043666     -0.1896492\n",
  chars! "  2P        1.007489     -0.0000057      0.0000641      0.0008529      1.3245401\n",
  chars! "        D                    3D             4D \n",
  chars! "  BASIS/ORB.ENERGY      -19.4581544     -1.6625366\n",
  chars! "              CUSP        1.0007338      0.9992193\n",
  chars! "  3D       51.597942      0.0023891     -0.0005217\n",
  chars! "  4D       41.349959      0.0089931     -0.0019606\n",
  chars! "  4D       25.387026      0.0325409     -0.0040600\n",
  chars! "  3D       15.528421      0.4271672     -0.1926681\n",
  chars! "  4D       13.034799      0.2858794     -0.0125389\n",
  chars! "  4D       11.515254      0.1879003     -0.2408208\n",
  chars! "  4D        8.788639      0.1500725     -0.0101906\n",
  chars! "  3D        4.556394      0.0055094      0.5000530\n",
  chars! "  3D        2.990519     -0.0006521      0.5149736\n",
  chars! "  3D        2.048564      0.0001205      0.1335755\n",
  chars! "  3D        1.007489     -0.0000102      0.0002978\n",
  chars! "\n"]⟩

theorem cation_sn_ok : cation_sn.ok = true := by decide +kernel

/-- `data/cation/sb`. -/
noncomputable def cation_sb : DataFile := ⟨51, .cation, [
  chars! "      ANTIMONY+   K(2)L(8)M(18)4S(2)4P(6)5S(2)4D(10)5P(2), 3P                         \n",
  chars! "\n",
  chars! "\n",
  chars! "\n",
  chars! "\n",
  chars! "   E = -6313.165938302\n",
  chars! "   T =  6313.165931418     V =-12626.331869720     V/T =    -2.000000001\n",
  chars! "\n",
  chars! "  ORBITAL ENERGIES AND EXPANSION COEFFICIENTS\n",
  chars! "        S                    1S             2S             3S             4S             5S \n",
  chars! "  BASIS/ORB.ENERGY    -1085.9106414   -165.0781955    -33.9558330     -6.3817600     -0.8558876\n",
  chars! "              CUSP        1.0002384      1.0000001      1.0001777      1.0002683      1.0000215\n",
  chars! "  1S       91.510038      0.0116119     -0.0214418     -0.0109649      0.0052125     -0.0016623\n",
  chars! "  3S       66.158049     -0.0173849      0.0272206      0.0143562     -0.0069221      0.0021770\n",
  chars! "  1S       52.818130     -0.9654298      0.3529747      0.1593518     -0.0710107      0.0230051\n",
  chars! "  4S       28.908909     -0.1028935      0.3540776      0.1042361     -0.0253196      0.0087925\n",
  chars! "  2S       26.867097     -0.1132982     -0.2089693     -0.1949356      0.1352329     -0.0469837\n",
  chars! "  3S       25.527436      0.1989488     -1.1061964     -0.6559897      0.3253140     -0.1106717\n",
  chars! "  2S       15.556395     -0.0234098     -0.1136923      0.2567280     -0.3311350      0.1267670\n",
  chars! "  4S       14.799417      0.0041248      0.0054368      0.6508623     -0.4201703      0.1496132\n",
  chars! "  4S       11.405158     -0.0018054     -0.0019461      0.3570156     -0.6425591      0.2607673\n",
  chars! "  4S        5.658977     -0.0007638     -0.0008477     -0.0309854      0.2119884     -0.0498818\n",
  chars! "  2S        4.195321      0.0013815      0.0017937      0.0733090      1.2468001     -0.6179784\n",
  chars! "  3S        3.487552     -0.0000274     -0.0000659     -0.0042461      0.0778633     -0.3961626\n",
  chars! "  2S        1.334874     -0.0000066     -0.0000040      0.0002261     -0.0001673      1.3445521\n",
  chars! "  3S        1.092702      0.0000026      0.0000013     -0.0000733      0.0001919      0.0005651\n",
  chars! "        P                    2P             3P             4P             5P \n",
  chars! "  BASIS/ORB.ENERGY     -154.3238959    -29.4251989     -4.7620742     -0.5969985\n",
  chars! "              CUSP        1.0007928      1.0000194      0.9997563      0.9994615\n",
  chars! "  2P       89.334065      0.0005603      0.0004547      0.0002303      0.0000663\n",
  chars! "  4P       55.165158     -0.0069856     -0.0055788     -0.0028302     -0.0008089\n",
  chars! "  2P       37.295835     -0.3343640     -0.1557195     -0.0625881     -0.0172243\n",
  chars! "  4P       28.116805      0.3619419      0.1264945      0.0348453      0.0084699\n",
  chars! "  3P       25.320500     -1.0308796     -0.4508831     -0.1507849     -0.0381096\n",
  chars! "  4P       22.376940     -0.0478185      0.1484171      0.1280222      0.0420871\n",
  chars! "  4P       14.838804     -0.0057128      0.6218901      0.4043434      0.1274679\n",
  chars! "  4P       10.928259      0.0013636      0.3532486      0.4971943      0.1719594\n",
  chars! "  2P        4.786676     -0.0006235      0.0342938     -0.5965134     -0.2735728\n",
  chars! "  3P        4.370542      0.0004247     -0.0070916     -0.7336304     -0.2008144\n",
  chars! "  3P        3.125810     -0.0000690      0.0009196     -0.1242625     -0.3239087\n",
  chars! "  3P        1.380036      0.0000572     -0.0004752     -0.0020209      0.2157742\n",
  chars! "  2P        1.092702     -0.0000600      0.0004829      0.0010183      1.0076695\n",
  chars! "        D                    3D             4D \n",
  chars! "  BASIS/ORB.ENERGY      -21.1175088     -2.0052258\n",
  chars! "              CUSP        1.0000012      0.9992233\n",
  chars! "  3D       52.820747      0.0022794     -0.0005038\n",
  chars! "  4D       42.469403      0.0083947     -0.0018472\n",
  chars! "  4D       26.142129      0.0305705     -0.0037541\n",
  chars! "  3D       16.086280      0.4190687     -0.1952983\n",
  chars! "  4D       13.482811      0.3222736     -0.0512190\n",
  chars! "  4D       11.556145      0.1697066     -0.2330723\n",
  chars! "  4D        9.064544      0.1413863      0.0132937\n",
  chars! "  3D        4.673794      0.0061150      0.5175289\n",
  chars! "  3D        3.165614     -0.0012427      0.5074630\n",
  chars! "  3D        2.193029      0.0002781      0.1139282\n",
  chars! "  3D        1.092702     -0.0000296      0.0004400\n",
  chars! "\n"]⟩

theorem cation_sb_ok : cation_sb.ok = true := by decide +kernel

/-- `data/cation/te`. -/
noncomputable def cation_te : DataFile := ⟨52, .cation, [
  chars! "      TELLURIUM+   K(2)L(8)M(18)4S(2)4P(6)5S(2)4D(10)5P(3), 4S                        \n",
  chars! "\n",
  chars! "\n",
  chars! "\n",
  chars! "\n",
  chars! "   E = -6611.503390415\n",
  chars! "   T =  6611.503399381     V =-13223.006789796     V/T =    -1.999999999\n",
  chars! "\n",
  chars! "  ORBITAL ENERGIES AND EXPANSION COEFFICIENTS\n",
  chars! "        S                    1S             2S             3S             4S             5S \n",
  chars! "  BASIS/ORB.ENERGY    -1131.2441875   -173.0814524    -36.0803757     -6.9715886     -0.9832149\n",
  chars! "              CUSP        1.0002305      1.0000398      1.0002194      1.0003673      1.0002025\n",
  chars! "  1S       93.590515      0.0123692     -0.0209484     -0.0107535      0.0052518     -0.0017675\n",
  chars! "  3S       67.811741     -0.0178768      0.0262496      0.0138996     -0.0069153      0.0023076\n",
  chars! "  1S       53.988581     -0.9638307      0.3512243      0.1591626     -0.0719797      0.0243631\n",
  chars! "  4S       29.683372     -0.1092143      0.3531079      0.1047102     -0.0225034      0.0073338\n",
  chars! "  2S       26.218479     -0.1331600     -0.2076912     -0.2115460      0.1612041     -0.0597461\n",
  chars! "  3S       26.207765      0.2310013     -1.0767087     -0.6258428      0.3094931     -0.1093386\n",
  chars! "  2S       16.745947     -0.0294586     -0.1358250      0.2231436     -0.3214480      0.1297798\n",
  chars! "  4S       15.345344      0.0039079      0.0021674      0.6393538     -0.4123160      0.1515744\n",
  chars! "  4S       11.865154     -0.0017628     -0.0007888      0.3837744     -0.6519567      0.2773152\n",
  chars! "  4S        5.915313     -0.0006921     -0.0002739     -0.0347745      0.2990226     -0.0663234\n",
  chars! "  2S        4.454222      0.0012756      0.0008198      0.0851227      1.1093529     -0.5781060\n",
  chars! "  3S        3.787930     -0.0000090     -0.0000534     -0.0043561      0.1179949     -0.4801761\n",
  chars! "  2S        1.441928     -0.0000078      0.0000002      0.0000746      0.0002796      1.3736657\n",
  chars! "  3S        1.173846      0.0000028     -0.0000007     -0.0000282      0.0001624      0.0041990\n",
  chars! "        P                    2P             3P             4P             5P \n",
  chars! "  BASIS/ORB.ENERGY     -162.0602940    -31.4090294     -5.2760430     -0.6889578\n",
  chars! "              CUSP        1.0009092      1.0003957      1.0000910      0.9990270\n",
  chars! "  2P       87.616102      0.0006998      0.0005841     -0.0003038      0.0000899\n",
  chars! "  4P       55.668833     -0.0072973     -0.0060449      0.0031386     -0.0008994\n",
  chars! "  2P       38.210478     -0.3319198     -0.1558140      0.0637800     -0.0186065\n",
  chars! "  4P       29.010304      0.3218415      0.1054918     -0.0264983      0.0071787\n",
  chars! "  3P       26.311565     -0.9792461     -0.4286083      0.1453117     -0.0393839\n",
  chars! "  4P       23.126945     -0.0657524      0.1350201     -0.1238806      0.0429125\n",
  chars! "  4P       15.267977     -0.0051151      0.6209780     -0.4102726      0.1380763\n",
  chars! "  4P       11.277741      0.0010890      0.3549311     -0.5042863      0.1837167\n",
  chars! "  2P        5.322612     -0.0004324      0.0390623      0.4845411     -0.2471212\n",
  chars! "  3P        4.614815      0.0003078     -0.0052126      0.8734083     -0.3016634\n",
  chars! "  3P        3.200239     -0.0000719      0.0010431      0.1064180     -0.4071339\n",
  chars! "  2P        1.177299      0.0000245     -0.0002654     -0.0002962      1.4106682\n",
  chars! "  3P        1.173846     -0.0000132      0.0001289      0.0003966     -0.1044193\n",
  chars! "        D                    3D             4D \n",
  chars! "  BASIS/ORB.ENERGY      -22.8376519     -2.3617314\n",
  chars! "              CUSP        0.9992165      0.9990678\n",
  chars! "  3D       53.731320      0.0028920     -0.0006035\n",
  chars! "  4D       43.429755      0.0103667     -0.0021475\n",
  chars! "  4D       26.567495      0.0448264     -0.0058475\n",
  chars! "  3D       16.127198      0.4138810     -0.2132586\n",
  chars! "  4D       14.562398      0.1738343      0.0194842\n",
  chars! "  4D       12.386016      0.3117967     -0.2841288\n",
  chars! "  4D        9.261869      0.1361438     -0.0059267\n",
  chars! "  3D        4.802362      0.0045394      0.5698709\n",
  chars! "  3D        3.251366     -0.0007452      0.5068548\n",
  chars! "  3D        2.176784      0.0001132      0.0665784\n",
  chars! "  3D        1.173846     -0.0000173     -0.0001401\n",
  chars! "\n"]⟩

theorem cation_te_ok : cation_te.ok = true := by decide +kernel

/-- Part 13 of the files. -/
noncomputable def part13 : List DataFile := [
  cation_zr, cation_nb, cation_mo, cation_tc, cation_ru, cation_rh, cation_pd, cation_ag, cation_cd, cation_in, cation_sn, cation_sb, cation_te]

theorem part13_ok : ∀ d ∈ part13, d.ok = true := by
  intro d hd
  unfold part13 at hd
  simp only [List.mem_cons, List.not_mem_nil, or_false] at hd
  rcases hd with rfl | rfl | rfl | rfl | rfl | rfl | rfl | rfl | rfl | rfl | rfl | rfl | rfl
  · exact cation_zr_ok
  · exact cation_nb_ok
  · exact cation_mo_ok
  · exact cation_tc_ok
  · exact cation_ru_ok
  · exact cation_rh_ok
  · exact cation_pd_ok
  · exact cation_ag_ok
  · exact cation_cd_ok
  · exact cation_in_ok
  · exact cation_sn_ok
  · exact cation_sb_ok
  · exact cation_te_ok

end BFit.Data
