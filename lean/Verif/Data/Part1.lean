import Verif.Lemmas.DataNum

/-! Copy of files in /repo/bfit/data/data.tar, generated by tools/gendata.py. -/

namespace BFit.Data

/-- `data/neutral/h`. -/
noncomputable def neutral_h : DataFile := ⟨1, .neutral, [
  chars! "      HYDROGEN   1S(1), 1S\n",
  chars! "   E =    -0.500000000\n",
  chars! "   T =     0.500000000     V =    -1.000000000     V/T =    -2.000000000\n",
  chars! "  ORBITAL ENERGIES AND EXPANSION COEFFICIENTS\n",
  chars! "        S                    1S\n",
  chars! "  BASIS/ORB.ENERGY       -0.5000000\n",
  chars! "              CUSP        1.0000000\n",
  chars! "  1S        1.00000       1.0000000\n"]⟩

theorem neutral_h_ok : neutral_h.ok = true := by decide +kernel

/-- `data/neutral/he`. -/
noncomputable def neutral_he : DataFile := ⟨2, .neutral, [
  chars! "      HELIUM   1S(2), 1S                                                              \n",
  chars! "   E =    -2.861679996\n",
  chars! "   T =     2.861679997     V =    -5.723359992     V/T =    -2.000000000\n",
  chars! "  ORBITAL ENERGIES AND EXPANSION COEFFICIENTS\n",
  chars! "        S                    1S \n",
  chars! "  BASIS/ORB.ENERGY       -0.9179556\n",
  chars! "              CUSP        1.0000525\n",
  chars! "  2S        6.437494      0.0008103\n",
  chars! "  1S        3.384356      0.0798826\n",
  chars! "  1S        2.177906      0.1801610\n",
  chars! "  1S        1.455077      0.7407925\n",
  chars! "  2S        1.354958      0.0272015\n"]⟩

theorem neutral_he_ok : neutral_he.ok = true := by decide +kernel

/-- `data/neutral/li`. -/
noncomputable def neutral_li : DataFile := ⟨3, .neutral, [
  chars! "      LITHIUM   1S(2)2S(1), 2S                                                        \n",
  chars! "   E =    -7.432726929\n",
  chars! "   T =     7.432726945     V =   -14.865453874     V/T =    -1.999999998\n",
  chars! "  ORBITAL ENERGIES AND EXPANSION COEFFICIENTS\n",
  chars! "        S                    1S             2S \n",
  chars! "  BASIS/ORB.ENERGY       -2.4777413     -0.1963228\n",
  chars! "              CUSP        1.0001519      0.9991836\n",
  chars! "  1S       10.335672      0.0014270      0.0002728\n",
  chars! "  1S        5.553473     -0.0514718     -0.0059858\n",
  chars! "  1S        3.453336     -0.1471640     -0.0400549\n",
  chars! "  1S        2.416445     -0.8105589     -0.0273618\n",
  chars! "  1S        1.555772     -0.0077788     -0.1448297\n",
  chars! "  1S        0.889955      0.0004098     -0.6053390\n",
  chars! "  2S        0.637402     -0.0005029      0.5955827\n",
  chars! "  1S        0.626614     -0.0002691      0.9979831\n",
  chars! "\n"]⟩

theorem neutral_li_ok : neutral_li.ok = true := by decide +kernel

/-- `data/neutral/be`. -/
noncomputable def neutral_be : DataFile := ⟨4, .neutral, [
  chars! "      BERYLLIUM 1S(2)2S(2), 1S\n",
  chars! "   E =   -14.573023167\n",
  chars! "   T =    14.573023130     V =   -29.146046297     V/T =    -2.000000003\n",
  chars! "  ORBITAL ENERGIES AND EXPANSION COEFFICIENTS\n",
  chars! "        S                    1S             2S\n",
  chars! "  BASIS/ORB.ENERGY       -4.7326699     -0.3092695\n",
  chars! "              CUSP        1.0001235      0.9998774\n",
  chars! "  1S       12.683501     -0.0024917      0.0004442\n",
  chars! "  1S        8.105927      0.0314015     -0.0030990\n",
  chars! "  1S        5.152556      0.0849694     -0.0367056\n",
  chars! "  1S        3.472467      0.8685562      0.0138910\n",
  chars! "  1S        2.349757      0.0315855     -0.3598016\n",
  chars! "  1S        1.406429     -0.0035284     -0.2563459\n",
  chars! "  2S        0.821620     -0.0004149      0.2434108\n",
  chars! "  1S        0.786473      0.0012299      1.1150995\n"]⟩

theorem neutral_be_ok : neutral_be.ok = true := by decide +kernel

/-- `data/neutral/b`. -/
noncomputable def neutral_b : DataFile := ⟨5, .neutral, [
  chars! "      BORON   1S(2)2S(2)2P(1), 2P                                                     \n",
  chars! "   E =   -24.529060725\n",
  chars! "   T =    24.529060725     V =   -49.058121450     V/T =    -2.000000000\n",
  chars! "  ORBITAL ENERGIES AND EXPANSION COEFFICIENTS\n",
  chars! "        S                    1S             2S \n",
  chars! "  BASIS/ORB.ENERGY       -7.6953347     -0.4947058\n",
  chars! "              CUSP        0.9999221      0.9996615\n",
  chars! "  2S       16.109305     -0.0005529     -0.0001239\n",
  chars! "  1S        7.628062     -0.2350117      0.0122241\n",
  chars! "  2S        6.135799     -0.1508924      0.0355967\n",
  chars! "  1S        4.167618     -0.6421165     -0.1987214\n",
  chars! "  1S        2.488602     -0.0011507     -0.5378967\n",
  chars! "  2S        1.642523     -0.0008611     -0.1199728\n",
  chars! "  1S        0.991698      0.0004712      1.4382402\n",
  chars! "  1S        0.787218     -0.0002323      0.0299258\n",
  chars! "        P                    2P \n",
  chars! "  BASIS/ORB.ENERGY       -0.3098564\n",
  chars! "              CUSP        1.0000209\n",
  chars! "  3P       12.135370      0.0000599\n",
  chars! "  2P        5.508493      0.0113751\n",
  chars! "  3P        3.930298      0.0095096\n",
  chars! "  2P        2.034395      0.1647518\n",
  chars! "  2P        1.301082      0.3367860\n",
  chars! "  2P        0.919434      0.4099162\n",
  chars! "  2P        0.787218      0.1329396\n",
  chars! "\n"]⟩

theorem neutral_b_ok : neutral_b.ok = true := by decide +kernel

/-- `data/neutral/c`. -/
noncomputable def neutral_c : DataFile := ⟨6, .neutral, [
  chars! "      CARBON    1S(2)2S(2)2P(2), 3P\n",
  chars! "   E =   -37.688618960\n",
  chars! "   T =    37.688618960     V =   -75.377237919     V/T =    -2.000000000\n",
  chars! "  ORBITAL ENERGIES AND EXPANSION COEFFICIENTS\n",
  chars! "        S                    1S             2S\n",
  chars! "  BASIS/ORB.ENERGY      -11.3255187     -0.7056273\n",
  chars! "              CUSP        0.9999688      0.9996101\n",
  chars! "  2S       18.890445     -0.0005490     -0.0001371\n",
  chars! "  1S        9.238787     -0.2240196      0.0125129\n",
  chars! "  2S        7.517513     -0.1458182      0.0314257\n",
  chars! "  1S        5.100368     -0.6531614     -0.1900434\n",
  chars! "  1S        3.276630     -0.0040799     -0.4731413\n",
  chars! "  2S        2.270243     -0.0011082     -0.0222123\n",
  chars! "  1S        1.192963     -0.0002033      1.2890026\n",
  chars! "  1S        0.930957     -0.0000658      0.0176521\n",
  chars! "        P                    2P\n",
  chars! "  BASIS/ORB.ENERGY       -0.4333405\n",
  chars! "              CUSP        0.9999272\n",
  chars! "  3P       15.083626      0.0000552\n",
  chars! "  2P        6.565676      0.0137471\n",
  chars! "  3P        4.729110      0.0162926\n",
  chars! "  2P        2.494494      0.2011747\n",
  chars! "  2P        1.601933      0.3651183\n",
  chars! "  2P        1.123315      0.3811596\n",
  chars! "  2P        0.930957      0.0951923\n",
  chars! "\n"]⟩

theorem neutral_c_ok : neutral_c.ok = true := by decide +kernel

/-- `data/neutral/n`. -/
noncomputable def neutral_n : DataFile := ⟨7, .neutral, [
  chars! "      NITROGEN   1S(2)2S(2)2P(3), 4S                                                  \n",
  chars! "   E =   -54.400934199\n",
  chars! "   T =    54.400934180     V =  -108.801868378     V/T =    -2.000000000\n",
  chars! "  ORBITAL ENERGIES AND EXPANSION COEFFICIENTS\n",
  chars! "        S                    1S             2S \n",
  chars! "  BASIS/ORB.ENERGY      -15.6290601     -0.9453239\n",
  chars! "              CUSP        0.9999757      0.9997830\n",
  chars! "  2S       21.666277     -0.0005456     -0.0001302\n",
  chars! "  1S       10.957976     -0.1970483      0.0186923\n",
  chars! "  2S        8.981511     -0.1281924      0.0337130\n",
  chars! "  1S        6.085323     -0.6885659     -0.2066322\n",
  chars! "  1S        3.948957     -0.0102852     -0.4498099\n",
  chars! "  2S        2.648617     -0.0012032      0.0126996\n",
  chars! "  1S        1.406521     -0.0003913      1.2313602\n",
  chars! "  1S        1.065447     -0.0000291      0.0261302\n",
  chars! "        P                    2P \n",
  chars! "  BASIS/ORB.ENERGY       -0.5675889\n",
  chars! "              CUSP        0.9999993\n",
  chars! "  3P       17.587523      0.0000533\n",
  chars! "  2P        7.584576      0.0160353\n",
  chars! "  3P        5.559658      0.0221910\n",
  chars! "  2P        2.932934      0.2314394\n",
  chars! "  2P        1.874157      0.3844061\n",
  chars! "  2P        1.306305      0.3515842\n",
  chars! "  2P        1.065447      0.0723077\n",
  chars! "\n"]⟩

theorem neutral_n_ok : neutral_n.ok = true := by decide +kernel

/-- `data/neutral/o`. -/
noncomputable def neutral_o : DataFile := ⟨8, .neutral, [
  chars! "      OXYGEN   1S(2)2S(2)2P(4), 3P                                                    \n",
  chars! "\n",
  chars! "\n",
  chars! "\n",
  chars! "\n",
  chars! "   E =   -74.809398459\n",
  chars! "   T =    74.809398458     V =  -149.618796918     V/T =    -2.000000000\n",
  chars! "\n",
  chars! "  ORBITAL ENERGIES AND EXPANSION COEFFICIENTS\n",
  chars! "        S                    1S             2S \n",
  chars! "  BASIS/ORB.ENERGY      -20.6686570     -1.2443146\n",
  chars! "              CUSP        0.9999598      0.9997164\n",
  chars! "  2S       24.975698     -0.0004756     -0.0001236\n",
  chars! "  1S       12.554759     -0.1852813      0.0164417\n",
  chars! "  2S       10.357096     -0.1195096      0.0288443\n",
  chars! "  1S        7.071190     -0.6980503     -0.1793400\n",
  chars! "  1S        4.804646     -0.0198704     -0.4384450\n",
  chars! "  2S        2.785958     -0.0014337      0.0752410\n",
  chars! "  1S        1.606267     -0.0000556      1.1524847\n",
  chars! "  1S        1.124194     -0.0001180      0.0142550\n",
  chars! "        P                    2P \n",
  chars! "  BASIS/ORB.ENERGY       -0.6319062\n",
  chars! "              CUSP        0.9991571\n",
  chars! "  3P       20.797000      0.0000481\n",
  chars! "  2P        8.661006      0.0171803\n",
  chars! "  3P        6.427925      0.0268010\n",
  chars! "  2P        3.402194      0.2528558\n",
  chars! "  2P        2.135366      0.3853260\n",
  chars! "  2P        1.425500      0.3433520\n",
  chars! "  2P        1.124194      0.0652167\n",
  chars! "\n"]⟩

theorem neutral_o_ok : neutral_o.ok = true := by decide +kernel

/-- `data/neutral/f`. -/
noncomputable def neutral_f : DataFile := ⟨9, .neutral, [
  chars! "      FLUORINE   1S(2)2S(2)2P(5), 2P                                                  \n",
  chars! "\n",
  chars! "\n",
  chars! "\n",
  chars! "\n",
  chars! "   E =   -99.409349369\n",
  chars! "   T =    99.409349306     V =  -198.818698675     V/T =    -2.000000001\n",
  chars! "\n",
  chars! "  ORBITAL ENERGIES AND EXPANSION COEFFICIENTS\n",
  chars! "        S                    1S             2S \n",
  chars! "  BASIS/ORB.ENERGY      -26.3827600     -1.5725347\n",
  chars! "              CUSP        0.9999915      0.9996668\n",
  chars! "  2S       27.647598     -0.0004697     -0.0001318\n",
  chars! "  1S       14.291092     -0.1659861      0.0120793\n",
  chars! "  2S       11.832995     -0.1073798      0.0223256\n",
  chars! "  1S        8.080680     -0.7181088     -0.1484346\n",
  chars! "  1S        5.633450     -0.0291976     -0.4452401\n",
  chars! "  2S        3.182099     -0.0015668      0.1053716\n",
  chars! "  1S        1.812284     -0.0001671      1.1104016\n",
  chars! "  1S        1.208319     -0.0001024      0.0133407\n",
  chars! "        P                    2P \n",
  chars! "  BASIS/ORB.ENERGY       -0.7300174\n",
  chars! "              CUSP        0.9994786\n",
  chars! "  3P       22.939589      0.0000474\n",
  chars! "  2P        9.684811      0.0187577\n",
  chars! "  3P        7.284146      0.0309393\n",
  chars! "  2P        3.846095      0.2700273\n",
  chars! "  2P        2.385087      0.3918133\n",
  chars! "  2P        1.560088      0.3293205\n",
  chars! "  2P        1.208319      0.0568617\n",
  chars! "\n"]⟩

theorem neutral_f_ok : neutral_f.ok = true := by decide +kernel

/-- `data/neutral/ne`. -/
noncomputable def neutral_ne : DataFile := ⟨10, .neutral, [
  chars! "      NEON   1S(2)2S(2)2P(6), 1S\n",
  chars! "   E =  -128.547098079\n",
  chars! "   T =   128.547098140     V =  -257.094196219     V/T =    -2.000000000\n",
  chars! "  ORBITAL ENERGIES AND EXPANSION COEFFICIENTS\n",
  chars! "        S                    1S             2S\n",
  chars! "  BASIS/ORB.ENERGY      -32.7724425     -1.9303907\n",
  chars! "              CUSP        1.0000603      0.9996584\n",
  chars! "  2S       29.214419     -0.0005654     -0.0001682\n",
  chars! "  1S       16.354484     -0.1341233      0.0046073\n",
  chars! "  2S       13.516489     -0.0891954      0.0131200\n",
  chars! "  1S        9.144899     -0.7527202     -0.1044881\n",
  chars! "  1S        6.491668     -0.0417988     -0.4632619\n",
  chars! "  2S        3.574219     -0.0017244      0.1258193\n",
  chars! "  1S        2.016153     -0.0002064      1.0809135\n",
  chars! "  1S        1.304155     -0.0001014      0.0127644\n",
  chars! "        P                    2P\n",
  chars! "  BASIS/ORB.ENERGY       -0.8504095\n",
  chars! "              CUSP        1.0000509\n",
  chars! "  3P       25.731219      0.0000409\n",
  chars! "  2P       10.674843      0.0203038\n",
  chars! "  3P        8.124569      0.0340866\n",
  chars! "  2P        4.295590      0.2801866\n",
  chars! "  2P        2.648660      0.3958489\n",
  chars! "  2P        1.710436      0.3203928\n",
  chars! "  2P        1.304155      0.0510413\n",
  chars! "\n"]⟩

theorem neutral_ne_ok : neutral_ne.ok = true := by decide +kernel

/-- `data/neutral/na`. -/
noncomputable def neutral_na : DataFile := ⟨11, .neutral, [
  chars! "      SODIUM   K(2)L(8)3S(1), 2S                                                      \n",
  chars! "   E =  -161.858911510\n",
  chars! "   T =   161.858911519     V =  -323.717823029     V/T =    -2.000000000\n",
  chars! "  ORBITAL ENERGIES AND EXPANSION COEFFICIENTS\n",
  chars! "        S                    1S             2S             3S \n",
  chars! "  BASIS/ORB.ENERGY      -40.4785011     -2.7970265     -0.1821026\n",
  chars! "              CUSP        0.9999821      0.9999429      0.9999423\n",
  chars! "  2S       33.255324      0.0004501     -0.0001077      0.0000179\n",
  chars! "  1S       17.591424      0.1721192      0.0260931     -0.0024656\n",
  chars! "  2S       14.711825      0.1153891      0.0324851     -0.0035309\n",
  chars! "  1S        9.845052      0.7194672     -0.2370856      0.0269246\n",
  chars! "  1S        6.517050      0.0130293     -0.5048822      0.0833110\n",
  chars! "  2S        5.163833      0.0021183     -0.0246135     -0.0077460\n",
  chars! "  1S        2.473455      0.0011034      1.3396630     -0.1263390\n",
  chars! "  1S        1.097424     -0.0000575      0.0054488     -0.3585874\n",
  chars! "  2S        0.620107     -0.0000167      0.0010882      0.8979831\n",
  chars! "  1S        0.603494      0.0000400     -0.0022657      0.3366263\n",
  chars! "        P                    2P \n",
  chars! "  BASIS/ORB.ENERGY       -1.5181403\n",
  chars! "              CUSP        0.9996514\n",
  chars! "  3P       28.733630      0.0000406\n",
  chars! "  2P       11.509522      0.0261868\n",
  chars! "  3P        8.818515      0.0469221\n",
  chars! "  2P        4.565004      0.3344314\n",
  chars! "  2P        2.734448      0.4892686\n",
  chars! "  2P        1.904519      0.1864531\n",
  chars! "  2P        0.603494      0.0006350\n",
  chars! "\n"]⟩

theorem neutral_na_ok : neutral_na.ok = true := by decide +kernel

/-- `data/neutral/mg`. -/
noncomputable def neutral_mg : DataFile := ⟨12, .neutral, [
  chars! "      MAGNESIUM   K(2)L(8)3S(2), 1S                                                   \n",
  chars! "   E =  -199.614636270\n",
  chars! "   T =   199.614636280     V =  -399.229272549     V/T =    -2.000000000\n",
  chars! "  ORBITAL ENERGIES AND EXPANSION COEFFICIENTS\n",
  chars! "        S                    1S             2S             3S \n",
  chars! "  BASIS/ORB.ENERGY      -49.0317363     -3.7677216     -0.2530524\n",
  chars! "              CUSP        0.9999991      0.9997885      0.9995405\n",
  chars! "  2S       35.988252     -0.0004360      0.0001304      0.0000306\n",
  chars! "  1S       19.193253     -0.1729871     -0.0094505      0.0007143\n",
  chars! "  2S       16.093419     -0.1169158     -0.0167113     -0.0009558\n",
  chars! "  1S       10.773377     -0.7144360      0.1266857      0.0081759\n",
  chars! "  1S        7.853579     -0.0148335      0.6252975      0.1267181\n",
  chars! "  2S        6.023976     -0.0028713      0.1486317      0.0042013\n",
  chars! "  1S        2.905152     -0.0011717     -1.4729320     -0.0558535\n",
  chars! "  1S        1.694174      0.0000626     -0.0053579     -0.6244636\n",
  chars! "  2S        0.750076      0.0000076     -0.0001472      0.5390530\n",
  chars! "  1S        0.711410     -0.0000173      0.0003601      0.7823663\n",
  chars! "        P                    2P \n",
  chars! "  BASIS/ORB.ENERGY       -2.2822260\n",
  chars! "              CUSP        0.9999847\n",
  chars! "  3P       32.077221      0.0000356\n",
  chars! "  2P       12.495413      0.0286249\n",
  chars! "  3P        9.644163      0.0513208\n",
  chars! "  2P        5.042248      0.3387086\n",
  chars! "  2P        3.070882      0.5624952\n",
  chars! "  2P        2.086080      0.0909855\n",
  chars! "  2P        0.711410      0.0006711\n"]⟩

theorem neutral_mg_ok : neutral_mg.ok = true := by decide +kernel

/-- `data/neutral/al`. -/
noncomputable def neutral_al : DataFile := ⟨13, .neutral, [
  chars! "      ALUMINUM   K(2)L(8)3S(2)3P(1), 2P                                               \n",
  chars! "   E =  -241.876707201\n",
  chars! "   T =   241.876707151     V =  -483.753414352     V/T =    -2.000000000\n",
  chars! "  ORBITAL ENERGIES AND EXPANSION COEFFICIENTS\n",
  chars! "        S                    1S             2S             3S \n",
  chars! "  BASIS/ORB.ENERGY      -58.5010265     -4.9106719     -0.3934208\n",
  chars! "              CUSP        1.0000800      0.9994302      0.9991863\n",
  chars! "  1S       39.496080      0.0016984     -0.0006857     -0.0001786\n",
  chars! "  1S       28.634791     -0.0106334      0.0030978      0.0007977\n",
  chars! "  1S       13.079059     -0.9324788      0.2903958      0.0593803\n",
  chars! "  2S       11.239687     -0.0712122      0.1788086      0.0376137\n",
  chars! "  1S        5.819769     -0.0047377      0.4039318      0.4131777\n",
  chars! "  2S        4.390969     -0.0037917     -0.1398263      0.3590308\n",
  chars! "  1S        3.270281      0.0042404     -1.3388160     -0.8526617\n",
  chars! "  1S        1.825554     -0.0003400     -0.0020328     -0.8245610\n",
  chars! "  2S        0.707141     -0.0000438      0.0001916     -0.6786038\n",
  chars! "  1S        0.647998      0.0000858     -0.0005141      2.1291109\n",
  chars! "        P                    2P             3P \n",
  chars! "  BASIS/ORB.ENERGY       -3.2183033     -0.2099507\n",
  chars! "              CUSP        1.0000238      0.9998750\n",
  chars! "  2P       32.912282     -0.0000924      0.0000180\n",
  chars! "  2P       19.759796      0.0018114     -0.0003532\n",
  chars! "  2P       11.877702      0.0035228     -0.0002071\n",
  chars! "  2P        7.686895      0.1462357     -0.0259716\n",
  chars! "  2P        5.052741      0.3034811     -0.0684621\n",
  chars! "  2P        3.511684      0.5033633     -0.0224624\n",
  chars! "  2P        2.582466      0.0995579     -0.1694494\n",
  chars! "  2P        1.012303      0.0023526      0.3150565\n",
  chars! "  2P        0.703112     -0.0008711      0.7451950\n",
  chars! "  3P        0.647998      0.0002671      0.0230875\n"]⟩

theorem neutral_al_ok : neutral_al.ok = true := by decide +kernel

/-- `data/neutral/si`. -/
noncomputable def neutral_si : DataFile := ⟨14, .neutral, [
  chars! "      SILICON   K(2)L(8)3S(2)3P(2), 3P                                                \n",
  chars! "   E =  -288.854362454\n",
  chars! "   T =   288.854362538     V =  -577.708724992     V/T =    -2.000000000\n",
  chars! "  ORBITAL ENERGIES AND EXPANSION COEFFICIENTS\n",
  chars! "        S                    1S             2S             3S \n",
  chars! "  BASIS/ORB.ENERGY      -68.8124558     -6.1565380     -0.5398424\n",
  chars! "              CUSP        1.0000798      0.9995051      0.9992066\n",
  chars! "  1S       40.744005      0.0027330      0.0010884     -0.0003241\n",
  chars! "  1S       32.345799     -0.0101378     -0.0032055      0.0009458\n",
  chars! "  1S       14.154495     -0.9311367     -0.2917220      0.0659012\n",
  chars! "  2S       12.216360     -0.0745227     -0.1774382      0.0416884\n",
  chars! "  1S        6.257945     -0.0042718     -0.3282571      0.6266028\n",
  chars! "  2S        4.879641     -0.0034503      0.3203634      0.5323327\n",
  chars! "  1S        3.586780      0.0037882      1.0983224     -1.3386717\n",
  chars! "  1S        2.070236     -0.0003537      0.0013121     -0.8164418\n",
  chars! "  1S        0.975003      0.0001180      0.0012855      1.6628928\n",
  chars! "  1S        0.770863     -0.0000551     -0.0003025     -0.0327784\n",
  chars! "        P                    2P             3P \n",
  chars! "  BASIS/ORB.ENERGY       -4.2560538     -0.2971145\n",
  chars! "              CUSP        1.0005405      0.9995811\n",
  chars! "  2P       35.986281     -0.0000771      0.0000186\n",
  chars! "  2P       20.811651      0.0019986     -0.0004618\n",
  chars! "  2P       11.079502      0.0027286      0.0010049\n",
  chars! "  2P        8.569582      0.1324846     -0.0298094\n",
  chars! "  2P        5.733707      0.2686232     -0.0732137\n",
  chars! "  2P        4.091940      0.5215984     -0.0253179\n",
  chars! "  2P        3.057286      0.1236799     -0.2177402\n",
  chars! "  2P        1.252393      0.0026814      0.3957806\n",
  chars! "  2P        0.870155     -0.0007868      0.6899150\n",
  chars! "  3P        0.770863      0.0002433      0.0234931\n",
  chars! "\n"]⟩

theorem neutral_si_ok : neutral_si.ok = true := by decide +kernel

/-- `data/neutral/p`. -/
noncomputable def neutral_p : DataFile := ⟨15, .neutral, [
  chars! "      PHOSPHORUS   K(2)L(8)3S(2)3P(3), 4S                                             \n",
  chars! "   E =  -340.718780875\n",
  chars! "   T =   340.718780873     V =  -681.437561747     V/T =    -2.000000000\n",
  chars! "  ORBITAL ENERGIES AND EXPANSION COEFFICIENTS\n",
  chars! "        S                    1S             2S             3S \n",
  chars! "  BASIS/ORB.ENERGY      -79.9697149     -7.5110960     -0.6964161\n",
  chars! "              CUSP        0.9999705      0.9999267      0.9990229\n",
  chars! "  2S       46.439666     -0.0003053     -0.0000832      0.0000516\n",
  chars! "  1S       23.444385     -0.2060038      0.0429022      0.0230913\n",
  chars! "  2S       19.934302     -0.1348631      0.0434537      0.0169021\n",
  chars! "  2S       12.335517      0.1932441      0.0832682      0.0630092\n",
  chars! "  1S       11.479363     -0.8490745     -0.5222080      0.1114601\n",
  chars! "  2S        6.165177     -0.0023024      0.4398440      0.1136681\n",
  chars! "  2S        4.690649      0.0004126      0.6399510     -0.1938357\n",
  chars! "  1S        2.631803     -0.0001709      0.0289095     -1.0898485\n",
  chars! "  1S        1.110511      0.0000788      0.0010930      1.6678177\n",
  chars! "  1S        0.885109     -0.0000352     -0.0000757     -0.0576567\n",
  chars! "        P                    2P             3P \n",
  chars! "  BASIS/ORB.ENERGY       -5.4009589     -0.3917087\n",
  chars! "              CUSP        1.0008332      0.9993777\n",
  chars! "  2P       37.277335     -0.0000830      0.0000233\n",
  chars! "  3P       18.380101     -0.0037430      0.0009662\n",
  chars! "  2P       10.933923      0.1235617     -0.0317780\n",
  chars! "  3P        9.369244      0.0793192     -0.0258695\n",
  chars! "  2P        5.290342      0.5133664     -0.0918254\n",
  chars! "  3P        3.672062     -0.1399868      0.0001315\n",
  chars! "  2P        3.427525      0.4681291     -0.2476404\n",
  chars! "  2P        1.537478      0.0021171      0.3847957\n",
  chars! "  2P        1.075424     -0.0005972      0.5829971\n",
  chars! "  2P        0.885109      0.0002485      0.1655351\n",
  chars! "\n"]⟩

theorem neutral_p_ok : neutral_p.ok = true := by decide +kernel

/-- `data/neutral/s`. -/
noncomputable def neutral_s : DataFile := ⟨16, .neutral, [
  chars! "      SULFUR   K(2)L(8)3S(2)3P(4), 3P                                                 \n",
  chars! "   E =  -397.504895877\n",
  chars! "   T =   397.504895830     V =  -795.009791707     V/T =    -2.000000000\n",
  chars! "  ORBITAL ENERGIES AND EXPANSION COEFFICIENTS\n",
  chars! "        S                    1S             2S             3S \n",
  chars! "  BASIS/ORB.ENERGY      -92.0044503     -9.0042897     -0.8795274\n",
  chars! "              CUSP        0.9999876      0.9998969      0.9997457\n",
  chars! "  2S       48.422248     -0.0003311     -0.0000964      0.0000376\n",
  chars! "  1S       25.147985     -0.2185996      0.0340191      0.0034601\n",
  chars! "  2S       21.424545     -0.1458971      0.0353772      0.0007431\n",
  chars! "  2S       12.574205      0.2712632      0.1313550      0.0178604\n",
  chars! "  1S       11.445276     -0.8952737     -0.5589279      0.2001706\n",
  chars! "  2S        6.468338     -0.0006092      0.5184366      0.1462161\n",
  chars! "  2S        5.067763     -0.0004666      0.5633707     -0.2861706\n",
  chars! "  1S        2.950475      0.0002312      0.0316144     -1.0966241\n",
  chars! "  1S        1.274078      0.0000167      0.0018838      1.6354332\n",
  chars! "  1S        0.935274      0.0000022     -0.0001474      0.0090317\n",
  chars! "        P                    2P             3P \n",
  chars! "  BASIS/ORB.ENERGY       -6.6825090     -0.4373688\n",
  chars! "              CUSP        1.0005158      0.9991449\n",
  chars! "  2P       40.400452     -0.0000773      0.0000233\n",
  chars! "  3P       19.793965     -0.0034844      0.0009714\n",
  chars! "  2P       11.660972      0.1229454     -0.0352972\n",
  chars! "  3P       10.088606      0.0714001     -0.0278951\n",
  chars! "  2P        5.687485      0.5908461     -0.0770693\n",
  chars! "  3P        3.866997     -0.1122147      0.0839057\n",
  chars! "  2P        3.641627      0.3682991     -0.3602018\n",
  chars! "  2P        1.835517      0.0025488      0.4024984\n",
  chars! "  2P        1.197266      0.0001394      0.5932585\n",
  chars! "  2P        0.935274      0.0002639      0.1586131\n",
  chars! "\n"]⟩

theorem neutral_s_ok : neutral_s.ok = true := by decide +kernel

/-- `data/neutral/cl`. -/
noncomputable def neutral_cl : DataFile := ⟨17, .neutral, [
  chars! "      CHLORINE   K(2)L(8)3S(2)3P(5), 2P                                               \n",
  chars! "   E =  -459.482072328\n",
  chars! "   T =   459.482072308     V =  -918.964144636     V/T =    -2.000000000\n",
  chars! "  ORBITAL ENERGIES AND EXPANSION COEFFICIENTS\n",
  chars! "        S                    1S             2S             3S \n",
  chars! "  BASIS/ORB.ENERGY     -104.8844208    -10.6074807     -1.0729121\n",
  chars! "              CUSP        1.0000547      1.0000295      0.9994642\n",
  chars! "  2S       52.549831     -0.0002524     -0.0000722      0.0000402\n",
  chars! "  1S       26.643633     -0.1814618      0.0445893      0.0037577\n",
  chars! "  2S       22.754804     -0.1155390      0.0426753      0.0006709\n",
  chars! "  2S       14.248239      0.2068512      0.0759190      0.0227232\n",
  chars! "  1S       13.203531     -0.9022700     -0.5277537      0.1486623\n",
  chars! "  2S        6.587648     -0.0017631      0.7717007      0.0455228\n",
  chars! "  2S        5.115487      0.0004191      0.3283319     -0.4489641\n",
  chars! "  1S        3.103725     -0.0000254      0.0097044     -0.8603633\n",
  chars! "  1S        1.427728      0.0000530      0.0032987      1.6497514\n",
  chars! "  1S        1.006380     -0.0000081     -0.0004079      0.0275982\n",
  chars! "        P                    2P             3P \n",
  chars! "  BASIS/ORB.ENERGY       -8.0722274     -0.5063999\n",
  chars! "              CUSP        1.0005299      0.9992672\n",
  chars! "  2P       44.251905     -0.0000618      0.0000198\n",
  chars! "  3P       21.017294     -0.0032830      0.0009768\n",
  chars! "  2P       12.370142      0.1185708     -0.0369629\n",
  chars! "  3P       10.884681      0.0572152     -0.0262659\n",
  chars! "  2P        6.217866      0.6133383     -0.0707982\n",
  chars! "  3P        4.148675     -0.1362286      0.1675670\n",
  chars! "  2P        3.863174      0.3818518     -0.4534267\n",
  chars! "  2P        2.015464      0.0021977      0.4593440\n",
  chars! "  2P        1.296207      0.0008173      0.5677005\n",
  chars! "  2P        1.006380      0.0002335      0.1293086\n",
  chars! "\n"]⟩

theorem neutral_cl_ok : neutral_cl.ok = true := by decide +kernel

/-- `data/neutral/ar`. -/
noncomputable def neutral_ar : DataFile := ⟨18, .neutral, [
  chars! "      ARGON    1S(2)2S(2)2P(6)3S(2)3P(6), 1S                                          \n",
  chars! "   E =  -526.817512711\n",
  chars! "   T =   526.817512750     V = -1053.635025461     V/T =    -2.000000000\n",
  chars! "  ORBITAL ENERGIES AND EXPANSION COEFFICIENTS\n",
  chars! "        S                    1S             2S             3S \n",
  chars! "  BASIS/ORB.ENERGY     -118.6103508    -12.3221535     -1.2773530\n",
  chars! "              CUSP        0.9999446      1.0000183      0.9993773\n",
  chars! "  2S       56.024242     -0.0002716     -0.0000726      0.0000359\n",
  chars! "  1S       28.780167     -0.1710204      0.0279220     -0.0112280\n",
  chars! "  2S       24.513979     -0.1141106      0.0286702     -0.0115130\n",
  chars! "  2S       15.086379      0.2067242      0.0504759     -0.0092934\n",
  chars! "  1S       14.036870     -0.9132755     -0.4849957      0.1752091\n",
  chars! "  2S        6.944507     -0.0023696      0.8698150     -0.0561490\n",
  chars! "  2S        5.309126      0.0014535      0.2352997     -0.5300804\n",
  chars! "  1S        3.317218     -0.0007953      0.0088439     -0.6888917\n",
  chars! "  1S        1.567689      0.0001863      0.0035499      1.6573375\n",
  chars! "  1S        1.087214     -0.0000528     -0.0003098      0.0288341\n",
  chars! "        P                    2P             3P \n",
  chars! "  BASIS/ORB.ENERGY       -9.5714658     -0.5910174\n",
  chars! "              CUSP        1.0002642      0.9992389\n",
  chars! "  2P       47.041050     -0.0000613      0.0000202\n",
  chars! "  3P       22.401098     -0.0031317      0.0009789\n",
  chars! "  2P       13.130477      0.1112736     -0.0362469\n",
  chars! "  3P       11.806433      0.0425036     -0.0220688\n",
  chars! "  2P        6.780130      0.6339220     -0.0797423\n",
  chars! "  3P        4.415953     -0.1615644      0.2302612\n",
  chars! "  2P        4.077204      0.4032696     -0.5119924\n",
  chars! "  2P        2.200943      0.0011903      0.4891912\n",
  chars! "  2P        1.412360     -0.0000900      0.5535620\n",
  chars! "  2P        1.087214      0.0000414      0.1126417\n",
  chars! "\n"]⟩

theorem neutral_ar_ok : neutral_ar.ok = true := by decide +kernel

/-- `data/neutral/k`. -/
noncomputable def neutral_k : DataFile := ⟨19, .neutral, [
  chars! "      POTASSIUM   K(2)L(8)3S(2)3P(6)4S(1), 2S                                         \n",
  chars! "   E =  -599.164786322\n",
  chars! "   T =   599.164786943     V = -1198.329573264     V/T =    -1.999999999\n",
  chars! "  ORBITAL ENERGIES AND EXPANSION COEFFICIENTS\n",
  chars! "        S                    1S             2S             3S             4S \n",
  chars! "  BASIS/ORB.ENERGY     -133.5330493    -14.4899575     -1.7487797     -0.1474751\n",
  chars! "              CUSP        1.0003111      0.9994803      1.0005849      1.0001341\n",
  chars! "  1S       48.538420     -0.0021779      0.0018667     -0.0004251      0.0001342\n",
  chars! "  3S       27.178567      0.0160836     -0.0102939      0.0025019     -0.0007921\n",
  chars! "  1S       20.222095      0.8188097     -0.1600968      0.0524504     -0.0103128\n",
  chars! "  3S       13.592814     -0.0820494      0.0858637     -0.0473839      0.0069127\n",
  chars! "  2S        7.647812     -0.2158247      1.0427023     -0.0769891      0.0276908\n",
  chars! "  2S        6.078224     -0.0516150      0.4336528     -0.6445475      0.0821168\n",
  chars! "  1S        6.077278      0.4738586     -0.6297128      0.2904986     -0.1213107\n",
  chars! "  1S        3.343549      0.0002719      0.0197017     -0.9094076      0.7609340\n",
  chars! "  2S        2.301557      0.0022252     -0.0061072      0.1553851      0.5911440\n",
  chars! "  1S        1.828604     -0.0034121      0.0119124      1.7112623     -1.2959807\n",
  chars! "  2S        0.555573     -0.0000294      0.0000855      0.0002823      1.4608731\n",
  chars! "  1S        0.543093      0.0000659     -0.0002013      0.0009316     -0.5367940\n",
  chars! "        P                    2P             3P \n",
  chars! "  BASIS/ORB.ENERGY      -11.5192795     -0.9544227\n",
  chars! "              CUSP        1.0007902      0.9998975\n",
  chars! "  2P       45.863372      0.0000979      0.0000354\n",
  chars! "  3P       23.956536      0.0031928      0.0011040\n",
  chars! "  2P       13.445654     -0.0866450     -0.0153622\n",
  chars! "  3P        9.280990      0.0491453      0.0620133\n",
  chars! "  2P        7.576272     -0.6660660     -0.1765320\n",
  chars! "  2P        5.560868     -0.3268554     -0.3537264\n",
  chars! "  3P        2.249040      0.0071913     -0.3401560\n",
  chars! "  2P        1.893851     -0.0110148      1.3735350\n",
  chars! "  2P        1.290943      0.0005219      0.1055549\n",
  chars! "  2P        0.543093     -0.0000095      0.0010773\n"]⟩

theorem neutral_k_ok : neutral_k.ok = true := by decide +kernel

/-- `data/neutral/ca`. -/
noncomputable def neutral_ca : DataFile := ⟨20, .neutral, [
  chars! "      CALCIUM   K(2)L(8)3S(2)3P(6)4S(2), 1S                                           \n",
  chars! "   E =  -676.758185346\n",
  chars! "   T =   676.758185367     V = -1353.516370714     V/T =    -2.000000000\n",
  chars! "  ORBITAL ENERGIES AND EXPANSION COEFFICIENTS\n",
  chars! "        S                    1S             2S             3S             4S \n",
  chars! "  BASIS/ORB.ENERGY     -149.3637260    -16.8227434     -2.2453758     -0.1955295\n",
  chars! "              CUSP        1.0002069      0.9992309      1.0003441      1.0008845\n",
  chars! "  1S       55.025070      0.0014243      0.0011968     -0.0003224      0.0000534\n",
  chars! "  3S       29.333512     -0.0129567     -0.0080951      0.0023876     -0.0004143\n",
  chars! "  1S       21.316999     -0.8089442     -0.1512063      0.0513616     -0.0124182\n",
  chars! "  3S       14.563031      0.0880966      0.0841105     -0.0422994      0.0122024\n",
  chars! "  2S        8.075590      0.2394273      1.1633902     -0.1555700      0.0109921\n",
  chars! "  1S        6.763191     -0.4761799     -0.6311882      0.1971616     -0.0234364\n",
  chars! "  2S        6.263443      0.0057173      0.3048988     -0.7182685      0.2343941\n",
  chars! "  2S        2.577548     -0.0121835     -0.0308593      1.1275138     -0.1255387\n",
  chars! "  1S        1.816117      0.0270307      0.0813505      0.0596091      0.7711321\n",
  chars! "  1S        1.500414     -0.0101743     -0.0336703      0.1150448     -1.3923824\n",
  chars! "  2S        0.648569     -0.0001830     -0.0008710      0.0023577      0.9198284\n",
  chars! "  1S        0.625347      0.0004971      0.0022405     -0.0063252      0.3965575\n",
  chars! "        P                    2P             3P \n",
  chars! "  BASIS/ORB.ENERGY      -13.6292687     -1.3407070\n",
  chars! "              CUSP        1.0006656      0.9994202\n",
  chars! "  2P       47.329816     -0.0001120      0.0000462\n",
  chars! "  3P       25.506017     -0.0030349      0.0011800\n",
  chars! "  2P       14.174024      0.0875599     -0.0123491\n",
  chars! "  3P       10.249231     -0.0316728      0.0651053\n",
  chars! "  2P        8.135533      0.6426078     -0.2032528\n",
  chars! "  2P        5.982999      0.3319706     -0.3647918\n",
  chars! "  3P        2.330080     -0.0052519     -0.3608637\n",
  chars! "  2P        2.056882      0.0078938      1.4758199\n",
  chars! "  2P        1.208793      0.0001322      0.0280494\n",
  chars! "  2P        0.625347     -0.0000458      0.0009427\n",
  chars! "\n"]⟩

theorem neutral_ca_ok : neutral_ca.ok = true := by decide +kernel

/-- `data/neutral/sc`. -/
noncomputable def neutral_sc : DataFile := ⟨21, .neutral, [
  chars! "      SCANDIUM   K(2)L(8)3S(2)3P(6)4S(2)3D(1), 2D                                     \n",
  chars! "   E =  -759.735717426\n",
  chars! "   T =   759.735717464     V = -1519.471434890     V/T =    -2.000000000\n",
  chars! "  ORBITAL ENERGIES AND EXPANSION COEFFICIENTS\n",
  chars! "        S                    1S             2S             3S             4S \n",
  chars! "  BASIS/ORB.ENERGY     -165.8998988    -19.0806199     -2.5673240     -0.2101086\n",
  chars! "              CUSP        1.0002332      0.9993251      1.0002310      1.0005513\n",
  chars! "  1S       57.498657      0.0013535      0.0011952     -0.0003663      0.0000757\n",
  chars! "  3S       30.833372     -0.0120567     -0.0079309      0.0026465     -0.0005611\n",
  chars! "  1S       22.361741     -0.8097734     -0.1476516      0.0513897     -0.0124367\n",
  chars! "  3S       15.415630      0.0850621      0.0757744     -0.0379520      0.0104546\n",
  chars! "  2S        8.610080      0.2364389      1.1816323     -0.1710157      0.0175538\n",
  chars! "  1S        7.168035     -0.4739453     -0.6559424      0.1997936     -0.0264782\n",
  chars! "  2S        6.645788      0.0098844      0.3207819     -0.7562835      0.2368120\n",
  chars! "  2S        2.786909     -0.0114407     -0.0216877      1.0889723     -0.1453304\n",
  chars! "  1S        1.961794      0.0244354      0.0583152      0.1562578      0.6523544\n",
  chars! "  1S        1.588713     -0.0087021     -0.0233924      0.0876539     -1.2841630\n",
  chars! "  2S        0.676641     -0.0002086     -0.0008048      0.0019419      0.8249110\n",
  chars! "  1S        0.648242      0.0005320      0.0019576     -0.0049723      0.5079875\n",
  chars! "        P                    2P             3P \n",
  chars! "  BASIS/ORB.ENERGY      -15.6682466     -1.5745484\n",
  chars! "              CUSP        1.0005327      0.9993743\n",
  chars! "  2P       49.842595     -0.0001098      0.0000463\n",
  chars! "  3P       26.926323     -0.0029004      0.0011609\n",
  chars! "  2P       14.480714      0.1212841     -0.0132121\n",
  chars! "  3P       10.991611      0.0252489      0.0647350\n",
  chars! "  2P        8.492563      0.5745498     -0.2299509\n",
  chars! "  2P        6.351088      0.3129971     -0.3568473\n",
  chars! "  3P        2.504892     -0.0040544     -0.4283568\n",
  chars! "  2P        2.207803      0.0065817      1.5576307\n",
  chars! "  2P        1.218695      0.0000003      0.0198377\n",
  chars! "  2P        0.648242     -0.0000130      0.0006167\n",
  chars! "        D                    3D \n",
  chars! "  BASIS/ORB.ENERGY       -0.3437122\n",
  chars! "              CUSP        0.9998687\n",
  chars! "  3D       18.112701      0.0014099\n",
  chars! "  4D       13.806782      0.0065323\n",
  chars! "  3D        6.306244      0.0442052\n",
  chars! "  3D        4.161485      0.1963389\n",
  chars! "  3D        2.673453      0.3283685\n",
  chars! "  3D        1.714319      0.3818901\n",
  chars! "  3D        1.087439      0.2068560\n",
  chars! "  3D        0.648242      0.0039745\n",
  chars! "\n"]⟩

theorem neutral_sc_ok : neutral_sc.ok = true := by decide +kernel

/-- `data/neutral/ti`. -/
noncomputable def neutral_ti : DataFile := ⟨22, .neutral, [
  chars! "      TITANIUM   K(2)L(8)3S(2)3P(6)4S(2)3D(2), 3F                                     \n",
  chars! "   E =  -848.405996326\n",
  chars! "   T =   848.405996466     V = -1696.811992791     V/T =    -2.000000000\n",
  chars! "  ORBITAL ENERGIES AND EXPANSION COEFFICIENTS\n",
  chars! "        S                    1S             2S             3S             4S \n",
  chars! "  BASIS/ORB.ENERGY     -183.2727593    -21.4229135     -2.8733981     -0.2207880\n",
  chars! "              CUSP        1.0001991      0.9992218      0.9999241      1.0000859\n",
  chars! "  1S       60.289820      0.0012926      0.0012040     -0.0004162      0.0000950\n",
  chars! "  3S       32.299759     -0.0114605     -0.0079860      0.0029768     -0.0006892\n",
  chars! "  1S       23.400426     -0.8115312     -0.1445460      0.0512115     -0.0122019\n",
  chars! "  3S       16.255875      0.0816377      0.0678589     -0.0333406      0.0087036\n",
  chars! "  2S        9.147991      0.2319387      1.1968416     -0.1871558      0.0232607\n",
  chars! "  1S        7.563319     -0.4691019     -0.6774864      0.1939240     -0.0266562\n",
  chars! "  2S        7.020328      0.0151634      0.3399134     -0.7919167      0.2360628\n",
  chars! "  2S        2.979739     -0.0092445     -0.0077091      1.0154717     -0.1497692\n",
  chars! "  1S        2.113198      0.0178036      0.0247033      0.3017204      0.4197396\n",
  chars! "  1S        1.621186     -0.0051991     -0.0091746      0.0505037     -1.0646875\n",
  chars! "  2S        0.695769     -0.0001907     -0.0005404      0.0015326      0.7481798\n",
  chars! "  1S        0.664512      0.0004695      0.0012567     -0.0038174      0.5949651\n",
  chars! "        P                    2P             3P \n",
  chars! "  BASIS/ORB.ENERGY      -17.7911882     -1.7950876\n",
  chars! "              CUSP        1.0009235      0.9995368\n",
  chars! "  2P       51.299773     -0.0001234      0.0000553\n",
  chars! "  3P       28.672833     -0.0027166      0.0011428\n",
  chars! "  2P       15.156461      0.1326522     -0.0117801\n",
  chars! "  3P       11.712761      0.0474760      0.0659143\n",
  chars! "  2P        8.887041      0.5621316     -0.2596441\n",
  chars! "  2P        6.711089      0.2922171     -0.3439841\n",
  chars! "  3P        2.704253     -0.0039271     -0.4611724\n",
  chars! "  2P        2.368233      0.0066401      1.5999717\n",
  chars! "  2P        1.251387     -0.0000545      0.0168819\n",
  chars! "  2P        0.664512      0.0000022      0.0003730\n",
  chars! "        D                    3D \n",
  chars! "  BASIS/ORB.ENERGY       -0.4406565\n",
  chars! "              CUSP        0.9999891\n",
  chars! "  3D       19.104138      0.0015070\n",
  chars! "  4D       14.658566      0.0067172\n",
  chars! "  3D        6.716801      0.0517986\n",
  chars! "  3D        4.401956      0.2309356\n",
  chars! "  3D        2.774678      0.3736332\n",
  chars! "  3D        1.786630      0.3511324\n",
  chars! "  3D        1.173680      0.1432688\n",
  chars! "  3D        0.664512      0.0010332\n",
  chars! "\n"]⟩

theorem neutral_ti_ok : neutral_ti.ok = true := by decide +kernel

/-- `data/neutral/v`. -/
noncomputable def neutral_v : DataFile := ⟨23, .neutral, [
  chars! "      VANADIUM   K(2)L(8)3S(2)3P(6)4S(2)3D(3), 4F                                     \n",
  chars! "   E =  -942.884337023\n",
  chars! "   T =   942.884337250     V = -1885.768674274     V/T =    -2.000000000\n",
  chars! "  ORBITAL ENERGIES AND EXPANSION COEFFICIENTS\n",
  chars! "        S                    1S             2S             3S             4S \n",
  chars! "  BASIS/ORB.ENERGY     -201.5028320    -23.8746533     -3.1831854     -0.2305788\n",
  chars! "              CUSP        1.0001886      0.9993330      0.9998198      0.9998577\n",
  chars! "  1S       62.875206      0.0012909      0.0011806     -0.0004552      0.0001085\n",
  chars! "  3S       33.885936     -0.0109967     -0.0076674      0.0031646     -0.0007610\n",
  chars! "  1S       24.457516     -0.8120094     -0.1411707      0.0506617     -0.0118527\n",
  chars! "  3S       17.072833      0.0800390      0.0634607     -0.0296552      0.0073434\n",
  chars! "  2S        9.664612      0.2292945      1.2164420     -0.2029999      0.0277623\n",
  chars! "  1S        7.931088     -0.4691224     -0.7029589      0.1897509     -0.0264696\n",
  chars! "  2S        7.398658      0.0218235      0.3505894     -0.8210458      0.2348937\n",
  chars! "  2S        3.165850     -0.0057876     -0.0016772      0.9478692     -0.1477421\n",
  chars! "  1S        2.266794      0.0102509      0.0115395      0.4151478      0.2745684\n",
  chars! "  1S        1.653671     -0.0024138     -0.0042834      0.0348454     -0.9304527\n",
  chars! "  2S        0.712906     -0.0001130     -0.0003807      0.0012974      0.6846603\n",
  chars! "  1S        0.679086      0.0002730      0.0008539     -0.0031509      0.6630154\n",
  chars! "        P                    2P             3P \n",
  chars! "  BASIS/ORB.ENERGY      -20.0224908     -2.0192251\n",
  chars! "              CUSP        1.0003518      0.9997845\n",
  chars! "  2P       52.631581     -0.0001616      0.0000688\n",
  chars! "  3P       30.669617     -0.0026656      0.0011174\n",
  chars! "  2P       15.795601      0.1549919     -0.0154736\n",
  chars! "  3P       12.334590      0.0894393      0.0580016\n",
  chars! "  2P        9.301379      0.4829740     -0.2474715\n",
  chars! "  2P        7.202975      0.3085893     -0.3520829\n",
  chars! "  3P        2.875851     -0.0058317     -0.4947799\n",
  chars! "  2P        2.512619      0.0094079      1.6362242\n",
  chars! "  2P        1.286363      0.0000017      0.0144381\n",
  chars! "  2P        0.679086     -0.0000114      0.0002403\n",
  chars! "        D                    3D \n",
  chars! "  BASIS/ORB.ENERGY       -0.5096201\n",
  chars! "              CUSP        0.9998504\n",
  chars! "  3D       20.118919      0.0015727\n",
  chars! "  4D       15.491232      0.0069095\n",
  chars! "  3D        6.994400      0.0636709\n",
  chars! "  3D        4.606157      0.2528675\n",
  chars! "  3D        2.904122      0.3894624\n",
  chars! "  3D        1.867151      0.3290693\n",
  chars! "  3D        1.237729      0.1139047\n",
  chars! "  3D        0.679086      0.0004478\n",
  chars! "\n"]⟩

theorem neutral_v_ok : neutral_v.ok = true := by decide +kernel

/-- `data/neutral/cr`. -/
noncomputable def neutral_cr : DataFile := ⟨24, .neutral, [
  chars! "      CHROMIUM   K(2)L(8)3S(2)3P(6)4S(1)3D(5), 7S                                     \n",
  chars! "   E = -1043.356375551\n",
  chars! "   T =  1043.356375276     V = -2086.712750827     V/T =    -2.000000000\n",
  chars! "  ORBITAL ENERGIES AND EXPANSION COEFFICIENTS\n",
  chars! "        S                    1S             2S             3S             4S \n",
  chars! "  BASIS/ORB.ENERGY     -220.3864068    -26.2096369     -3.2851612     -0.2220501\n",
  chars! "              CUSP        1.0002151      0.9993425      0.9995990      0.9994388\n",
  chars! "  1S       64.134378      0.0014070      0.0013617     -0.0005803      0.0001431\n",
  chars! "  3S       35.194142     -0.0110748     -0.0081648      0.0036795     -0.0009114\n",
  chars! "  1S       25.454647     -0.8205511     -0.1421246      0.0511424     -0.0111788\n",
  chars! "  3S       17.708856      0.0761683      0.0599032     -0.0255986      0.0052243\n",
  chars! "  2S       10.162320      0.2044973      1.2251393     -0.2189007      0.0345145\n",
  chars! "  1S        8.462113     -0.4296209     -0.6888312      0.1536706     -0.0293029\n",
  chars! "  2S        7.730720      0.0176638      0.3341940     -0.8498296      0.2087831\n",
  chars! "  2S        3.367156     -0.0006641      0.0090967      0.7471068     -0.1862060\n",
  chars! "  1S        2.316006      0.0011192     -0.0087407      0.6925615      0.0821551\n",
  chars! "  1S        1.537736     -0.0003022      0.0016728      0.0040460     -0.6016914\n",
  chars! "  2S        0.699029     -0.0000369      0.0002488     -0.0000902      0.7365812\n",
  chars! "  1S        0.666408      0.0000828     -0.0001737     -0.0003102      0.5513708\n",
  chars! "        P                    2P             3P \n",
  chars! "  BASIS/ORB.ENERGY      -22.1398569     -2.0509322\n",
  chars! "              CUSP        1.0001605      1.0009380\n",
  chars! "  2P       54.119911      0.0001884      0.0000694\n",
  chars! "  3P       32.347673      0.0026512      0.0010266\n",
  chars! "  2P       16.361604     -0.1813594     -0.0207855\n",
  chars! "  3P       12.870877     -0.1328680      0.0473677\n",
  chars! "  2P        9.705787     -0.3895478     -0.2172009\n",
  chars! "  2P        7.719275     -0.3337827     -0.3681273\n",
  chars! "  3P        3.078646      0.0086859     -0.5436322\n",
  chars! "  2P        2.646262     -0.0135009      1.6733666\n",
  chars! "  2P        1.486704      0.0000344      0.0276998\n",
  chars! "  2P        0.666408     -0.0000003      0.0002341\n",
  chars! "        D                    3D \n",
  chars! "  BASIS/ORB.ENERGY       -0.3736058\n",
  chars! "              CUSP        0.9995978\n",
  chars! "  3D       21.010126      0.0015166\n",
  chars! "  4D       16.248352      0.0064929\n",
  chars! "  3D        7.319431      0.0676131\n",
  chars! "  3D        4.807319      0.2519614\n",
  chars! "  3D        3.023447      0.3670945\n",
  chars! "  3D        1.852525      0.3299536\n",
  chars! "  3D        1.147532      0.1666695\n",
  chars! "  3D        0.666408      0.0029340\n"]⟩

theorem neutral_cr_ok : neutral_cr.ok = true := by decide +kernel

/-- `data/neutral/mn`. -/
noncomputable def neutral_mn : DataFile := ⟨25, .neutral, [
  chars! "      MANGANESE   K(2)L(8)3S(2)3P(6)4S(2)3D(5), 6S                                    \n",
  chars! "   E = -1149.866250992\n",
  chars! "   T =  1149.866250980     V = -2299.732501972     V/T =    -2.000000000\n",
  chars! "  ORBITAL ENERGIES AND EXPANSION COEFFICIENTS\n",
  chars! "        S                    1S             2S             3S             4S \n",
  chars! "  BASIS/ORB.ENERGY     -240.5339914    -29.1094747     -3.8166459     -0.2478707\n",
  chars! "              CUSP        1.0002344      0.9994593      0.9996703      0.9995992\n",
  chars! "  1S       65.615997      0.0014463      0.0014587     -0.0006400      0.0001531\n",
  chars! "  3S       36.493146     -0.0107434     -0.0083000      0.0038340     -0.0009212\n",
  chars! "  1S       26.490049     -0.8220966     -0.1380048      0.0507934     -0.0114276\n",
  chars! "  3S       18.586295      0.0720820      0.0503941     -0.0224750      0.0051239\n",
  chars! "  2S       10.770334      0.1992914      1.2042773     -0.2078934      0.0291037\n",
  chars! "  1S        8.946835     -0.4216099     -0.7054832      0.1832236     -0.0268992\n",
  chars! "  2S        8.222221      0.0184424      0.3774786     -0.8549556      0.2278690\n",
  chars! "  2S        3.543574     -0.0016396      0.0124346      0.8735202     -0.1521253\n",
  chars! "  1S        2.463906      0.0028177     -0.0140740      0.5392017      0.1876799\n",
  chars! "  1S        1.753364     -0.0007213      0.0028051      0.0071191     -0.8254018\n",
  chars! "  2S        0.743164     -0.0000471      0.0000751      0.0005806      0.5930836\n",
  chars! "  1S        0.704089      0.0001067     -0.0002025     -0.0012804      0.7464188\n",
  chars! "        P                    2P             3P \n",
  chars! "  BASIS/ORB.ENERGY      -24.8125892     -2.4795310\n",
  chars! "              CUSP        1.0008225      0.9992597\n",
  chars! "  2P       52.083296      0.0003267      0.0001576\n",
  chars! "  3P       33.806616      0.0029985      0.0013846\n",
  chars! "  2P       17.420626     -0.1595513     -0.0179796\n",
  chars! "  3P       13.771396     -0.1056915      0.0479529\n",
  chars! "  2P       10.071962     -0.5160790     -0.2875608\n",
  chars! "  2P        7.859711     -0.2542325     -0.3226370\n",
  chars! "  3P        3.390377      0.0062024     -0.4273169\n",
  chars! "  2P        2.922745     -0.0105067      1.5653185\n",
  chars! "  2P        1.760084      0.0001346      0.0402565\n",
  chars! "  2P        0.704089     -0.0000051      0.0005669\n",
  chars! "        D                    3D \n",
  chars! "  BASIS/ORB.ENERGY       -0.6388473\n",
  chars! "              CUSP        0.9998104\n",
  chars! "  3D       22.242214      0.0016172\n",
  chars! "  4D       17.176523      0.0070783\n",
  chars! "  3D        7.574462      0.0876536\n",
  chars! "  3D        5.005562      0.2828126\n",
  chars! "  3D        3.189753      0.3894977\n",
  chars! "  3D        2.065915      0.2966932\n",
  chars! "  3D        1.380034      0.0910173\n",
  chars! "  3D        0.704089      0.0002949\n",
  chars! "\n"]⟩

theorem neutral_mn_ok : neutral_mn.ok = true := by decide +kernel

/-- `data/neutral/fe`. -/
noncomputable def neutral_fe : DataFile := ⟨26, .neutral, [
  chars! "      IRON   K(2)L(8)3S(2)3P(6)4S(2)3D(6), 5D                                         \n",
  chars! "   E = -1262.443664689\n",
  chars! "   T =  1262.443664533     V = -2524.887329222     V/T =    -2.000000000\n",
  chars! "  ORBITAL ENERGIES AND EXPANSION COEFFICIENTS\n",
  chars! "        S                    1S             2S             3S             4S \n",
  chars! "  BASIS/ORB.ENERGY     -261.3734219    -31.9355217     -4.1694393     -0.2581805\n",
  chars! "              CUSP        1.0002371      0.9995059      0.9995698      0.9994220\n",
  chars! "  1S       67.039851      0.0015184      0.0015653     -0.0007443      0.0001824\n",
  chars! "  3S       37.739652     -0.0106577     -0.0084246      0.0041962     -0.0010310\n",
  chars! "  1S       27.502599     -0.8270191     -0.1366790      0.0507275     -0.0113065\n",
  chars! "  3S       19.356262      0.0684367      0.0465236     -0.0186454      0.0039089\n",
  chars! "  2S       11.285074      0.1913138      1.2166161     -0.2225578      0.0331594\n",
  chars! "  1S        9.367472     -0.4067605     -0.7169434      0.1830688     -0.0278507\n",
  chars! "  2S        8.606144      0.0184840      0.3776062     -0.8655540      0.2247979\n",
  chars! "  2S        3.732769     -0.0013668      0.0112197      0.8448811     -0.1544478\n",
  chars! "  1S        2.599956      0.0022126     -0.0118535      0.5820667      0.1586917\n",
  chars! "  1S        1.821430     -0.0004942      0.0022054      0.0072140     -0.7886902\n",
  chars! "  2S        0.761362     -0.0000288      0.0000615      0.0004931      0.5508906\n",
  chars! "  1S        0.718583      0.0000656     -0.0001613     -0.0010485      0.7825338\n",
  chars! "        P                    2P             3P \n",
  chars! "  BASIS/ORB.ENERGY      -27.4137116     -2.7421982\n",
  chars! "              CUSP        1.0008006      1.0003293\n",
  chars! "  2P       53.958628      0.0003539      0.0001605\n",
  chars! "  3P       35.552297      0.0029461      0.0013264\n",
  chars! "  2P       18.139253     -0.1710197     -0.0188217\n",
  chars! "  3P       14.420001     -0.1274017      0.0451461\n",
  chars! "  2P       10.398009     -0.5025877     -0.3154501\n",
  chars! "  2P        8.220976     -0.2353695     -0.2957612\n",
  chars! "  3P        3.526362      0.0067758     -0.4783269\n",
  chars! "  2P        3.043306     -0.0113099      1.6251079\n",
  chars! "  2P        1.742634      0.0000849      0.0289213\n",
  chars! "  2P        0.718583     -0.0000036      0.0004127\n",
  chars! "        D                    3D \n",
  chars! "  BASIS/ORB.ENERGY       -0.6468876\n",
  chars! "              CUSP        1.0001477\n",
  chars! "  3D       23.292198      0.0016054\n",
  chars! "  4D       18.020857      0.0069661\n",
  chars! "  3D        7.891984      0.0981612\n",
  chars! "  3D        5.208309      0.2946262\n",
  chars! "  3D        3.309121      0.3855914\n",
  chars! "  3D        2.122232      0.2865224\n",
  chars! "  3D        1.404987      0.0891893\n",
  chars! "  3D        0.718583      0.0003175\n",
  chars! "\n"]⟩

theorem neutral_fe_ok : neutral_fe.ok = true := by decide +kernel

/-- `data/neutral/co`. -/
noncomputable def neutral_co : DataFile := ⟨27, .neutral, [
  chars! "      COBALT   K(2)L(8)3S(2)3P(6)4S(2)3D(7), 4F                                       \n",
  chars! "   E = -1381.414552237\n",
  chars! "   T =  1381.414552303     V = -2762.829104540     V/T =    -2.000000000\n",
  chars! "  ORBITAL ENERGIES AND EXPANSION COEFFICIENTS\n",
  chars! "        S                    1S             2S             3S             4S \n",
  chars! "  BASIS/ORB.ENERGY     -283.0655047    -34.8683343     -4.5242891     -0.2674203\n",
  chars! "              CUSP        1.0002555      0.9996229      0.9996016      0.9994130\n",
  chars! "  1S       67.880489      0.0016519      0.0017335     -0.0008763      0.0002176\n",
  chars! "  3S       38.904351     -0.0106873     -0.0086171      0.0045437     -0.0011301\n",
  chars! "  1S       28.510966     -0.8324281     -0.1356177      0.0506573     -0.0111567\n",
  chars! "  3S       20.112028      0.0646578      0.0425608     -0.0149959      0.0027678\n",
  chars! "  2S       11.806173      0.1823705      1.2252448     -0.2355081      0.0366503\n",
  chars! "  1S        9.803070     -0.3900133     -0.7256070      0.1824936     -0.0286333\n",
  chars! "  2S        8.992577      0.0179088      0.3791099     -0.8737051      0.2205742\n",
  chars! "  2S        3.918210     -0.0012577      0.0105801      0.8165784     -0.1557938\n",
  chars! "  1S        2.729885      0.0019348     -0.0107103      0.6226990      0.1307983\n",
  chars! "  1S        1.879157     -0.0003799      0.0019459      0.0066042     -0.7520185\n",
  chars! "  2S        0.777145     -0.0000192      0.0000728      0.0004254      0.5133699\n",
  chars! "  1S        0.731328      0.0000448     -0.0001761     -0.0008723      0.8140936\n",
  chars! "        P                    2P             3P \n",
  chars! "  BASIS/ORB.ENERGY      -30.1201739     -3.0062447\n",
  chars! "              CUSP        1.0007882      1.0006858\n",
  chars! "  2P       55.920505      0.0003577      0.0001529\n",
  chars! "  3P       37.045603      0.0028804      0.0012416\n",
  chars! "  2P       18.633841     -0.2018877     -0.0243883\n",
  chars! "  3P       14.903522     -0.1726462      0.0375714\n",
  chars! "  2P       10.432654     -0.4948883     -0.3921162\n",
  chars! "  2P        8.406347     -0.1701586     -0.2087478\n",
  chars! "  3P        3.670304      0.0067602     -0.5137528\n",
  chars! "  2P        3.170172     -0.0113278      1.6628454\n",
  chars! "  2P        1.761172      0.0000588      0.0237833\n",
  chars! "  2P        0.731328     -0.0000032      0.0003303\n",
  chars! "        D                    3D \n",
  chars! "  BASIS/ORB.ENERGY       -0.6754181\n",
  chars! "              CUSP        0.9993037\n",
  chars! "  3D       24.172555      0.0016416\n",
  chars! "  4D       18.786883      0.0069451\n",
  chars! "  3D        8.199042      0.1090000\n",
  chars! "  3D        5.406704      0.3032906\n",
  chars! "  3D        3.442626      0.3786483\n",
  chars! "  3D        2.205849      0.2778314\n",
  chars! "  3D        1.453653      0.0886884\n",
  chars! "  3D        0.731328      0.0003702\n"]⟩

theorem neutral_co_ok : neutral_co.ok = true := by decide +kernel

/-- `data/neutral/ni`. -/
noncomputable def neutral_ni : DataFile := ⟨28, .neutral, [
  chars! "      NICKEL   K(2)L(8)3S(2)3P(6)4S(2)3D(8), 3F                                       \n",
  chars! "   E = -1506.870907385\n",
  chars! "   T =  1506.870907195     V = -3013.741814580     V/T =    -2.000000000\n",
  chars! "  ORBITAL ENERGIES AND EXPANSION COEFFICIENTS\n",
  chars! "        S                    1S             2S             3S             4S \n",
  chars! "  BASIS/ORB.ENERGY     -305.6190343    -37.9178317     -4.8878363     -0.2762501\n",
  chars! "              CUSP        1.0002578      0.9996931      0.9996287      0.9994255\n",
  chars! "  1S       69.226787      0.0017658      0.0018570     -0.0009759      0.0002430\n",
  chars! "  3S       40.178379     -0.0107113     -0.0087143      0.0047668     -0.0011894\n",
  chars! "  1S       29.523561     -0.8374316     -0.1342940      0.0502696     -0.0109214\n",
  chars! "  3S       20.825217      0.0619061      0.0393427     -0.0119704      0.0018380\n",
  chars! "  2S       12.335507      0.1699209      1.2262784     -0.2460914      0.0394703\n",
  chars! "  1S       10.337108     -0.3687887     -0.7239600      0.1796269     -0.0288664\n",
  chars! "  2S        9.378273      0.0143053      0.3756137     -0.8799152      0.2164175\n",
  chars! "  2S        4.099637     -0.0009768      0.0103158      0.7883898     -0.1552368\n",
  chars! "  1S        2.864936      0.0014735     -0.0100626      0.6611584      0.1041796\n",
  chars! "  1S        1.935115     -0.0002638      0.0016998      0.0077496     -0.7171979\n",
  chars! "  2S        0.792121     -0.0000136      0.0000688      0.0004304      0.4802792\n",
  chars! "  1S        0.743304      0.0000313     -0.0001625     -0.0008707      0.8403130\n",
  chars! "        P                    2P             3P \n",
  chars! "  BASIS/ORB.ENERGY      -32.9417364     -3.2776780\n",
  chars! "              CUSP        1.0007815      1.0000902\n",
  chars! "  2P       57.991635      0.0003620      0.0001624\n",
  chars! "  3P       38.657440      0.0027976      0.0012422\n",
  chars! "  2P       19.286668     -0.2159150     -0.0289838\n",
  chars! "  3P       15.489265     -0.1949848      0.0291239\n",
  chars! "  2P       10.586878     -0.5233394     -0.4624462\n",
  chars! "  2P        8.440193     -0.1068114     -0.1291237\n",
  chars! "  3P        3.827276      0.0063656     -0.5416602\n",
  chars! "  2P        3.303890     -0.0108025      1.6930962\n",
  chars! "  2P        1.779584      0.0000461      0.0204043\n",
  chars! "  2P        0.743304     -0.0000041      0.0002391\n",
  chars! "        D                    3D \n",
  chars! "  BASIS/ORB.ENERGY       -0.7069318\n",
  chars! "              CUSP        0.9997078\n",
  chars! "  3D       25.058793      0.0016742\n",
  chars! "  4D       19.533825      0.0069410\n",
  chars! "  3D        8.512016      0.1192748\n",
  chars! "  3D        5.601915      0.3109624\n",
  chars! "  3D        3.574636      0.3717722\n",
  chars! "  3D        2.291306      0.2701439\n",
  chars! "  3D        1.503687      0.0879630\n",
  chars! "  3D        0.743304      0.0004043\n"]⟩

theorem neutral_ni_ok : neutral_ni.ok = true := by decide +kernel

/-- Part 1 of the files. -/
noncomputable def part1 : List DataFile := [
  neutral_h, neutral_he, neutral_li, neutral_be, neutral_b, neutral_c, neutral_n, neutral_o, neutral_f, neutral_ne, neutral_na, neutral_mg, neutral_al, neutral_si, neutral_p, neutral_s, neutral_cl, neutral_ar, neutral_k, neutral_ca, neutral_sc, neutral_ti, neutral_v, neutral_cr, neutral_mn, neutral_fe, neutral_co, neutral_ni]

theorem part1_ok : ∀ d ∈ part1, d.ok = true := by
  intro d hd
  unfold part1 at hd
  simp only [List.mem_cons, List.not_mem_nil, or_false] at hd
  rcases hd with rfl | rfl | rfl | rfl | rfl | rfl | rfl | rfl | rfl | rfl | rfl | rfl | rfl | rfl | rfl | rfl | rfl | rfl | rfl | rfl | rfl | rfl | rfl | rfl | rfl | rfl | rfl | rfl
  · exact neutral_h_ok
  · exact neutral_he_ok
  · exact neutral_li_ok
  · exact neutral_be_ok
  · exact neutral_b_ok
  · exact neutral_c_ok
  · exact neutral_n_ok
  · exact neutral_o_ok
  · exact neutral_f_ok
  · exact neutral_ne_ok
  · exact neutral_na_ok
  · exact neutral_mg_ok
  · exact neutral_al_ok
  · exact neutral_si_ok
  · exact neutral_p_ok
  · exact neutral_s_ok
  · exact neutral_cl_ok
  · exact neutral_ar_ok
  · exact neutral_k_ok
  · exact neutral_ca_ok
  · exact neutral_sc_ok
  · exact neutral_ti_ok
  · exact neutral_v_ok
  · exact neutral_cr_ok
  · exact neutral_mn_ok
  · exact neutral_fe_ok
  · exact neutral_co_ok
  · exact neutral_ni_ok

end BFit.Data
