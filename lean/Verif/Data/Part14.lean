import Verif.Lemmas.DataNum

/-! Copy of files in /repo/bfit/data/data.tar, generated by tools/gendata.py. -/

namespace BFit.Data

/-- `data/cation/i`. -/
noncomputable def cation_i : DataFile := ⟨53, .cation, [
  chars! "      IODINE+   K(2)L(8)M(18)4S(2)4P(6)5S(2)4D(10)5P(4), 3P                           \n",
  chars! "\n",
  chars! "\n",
  chars! "\n",
  chars! "\n",
  chars! "   E = -6917.627270253\n",
  chars! "   T =  6917.627269288     V =-13835.254539540     V/T =    -2.000000000\n",
  chars! "\n",
  chars! "  ORBITAL ENERGIES AND EXPANSION COEFFICIENTS\n",
  chars! "        S                    1S             2S             3S             4S             5S \n",
  chars! "  BASIS/ORB.ENERGY    -1177.5362243   -181.2977926    -38.2822447     -7.5906252     -1.1214874\n",
  chars! "              CUSP        1.0002177      0.9999906      1.0001558      1.0002851      1.0001472\n",
  chars! "  1S       95.699405      0.0121177     -0.0207324     -0.0106515      0.0052914     -0.0018596\n",
  chars! "  3S       69.159533     -0.0177550      0.0264097      0.0139807     -0.0070738      0.0024700\n",
  chars! "  1S       55.005356     -0.9641131      0.3516209      0.1598894     -0.0732301      0.0257338\n",
  chars! "  4S       30.208358     -0.1083059      0.3594009      0.1084710     -0.0211268      0.0063415\n",
  chars! "  2S       27.514972     -0.1228957     -0.2008652     -0.2009195      0.1880442     -0.0762878\n",
  chars! "  3S       26.665804      0.2170969     -1.1069577     -0.6584985      0.3547063     -0.1325452\n",
  chars! "  2S       16.754872     -0.0275157     -0.1214900      0.2448272     -0.5368859      0.2390178\n",
  chars! "  4S       15.428419      0.0037404      0.0029063      0.7015212     -0.6231465      0.2554965\n",
  chars! "  4S       11.735418     -0.0022116     -0.0013585      0.3225209     -0.7957554      0.3638283\n",
  chars! "  2S        6.709553      0.0016139      0.0012441      0.0414924      1.1441542     -0.5854768\n",
  chars! "  4S        6.090588     -0.0003047     -0.0000566      0.0015184      0.6729804     -0.2252477\n",
  chars! "  3S        4.120560      0.0001247      0.0000382      0.0000342      0.2182860     -0.6227461\n",
  chars! "  2S        1.546919     -0.0000133     -0.0000088     -0.0000710      0.0005657      1.3996221\n",
  chars! "  3S        1.205350      0.0000040      0.0000017      0.0000021      0.0001858      0.0075751\n",
  chars! "        P                    2P             3P             4P             5P \n",
  chars! "  BASIS/ORB.ENERGY     -170.0088119    -33.4695779     -5.8184596     -0.7264345\n",
  chars! "              CUSP        1.0009478      1.0004682      1.0003796      1.0000493\n",
  chars! "  2P       85.708202      0.0010124      0.0007733     -0.0004060      0.0001305\n",
  chars! "  4P       56.135051     -0.0085561     -0.0065209      0.0034459     -0.0011021\n",
  chars! "  2P       39.210062     -0.3288613     -0.1559999      0.0648998     -0.0193362\n",
  chars! "  4P       29.385706      0.3571027      0.1214907     -0.0299992      0.0061948\n",
  chars! "  3P       26.590075     -1.0193308     -0.4563591      0.1575180     -0.0398059\n",
  chars! "  4P       23.838904     -0.0597356      0.1279594     -0.1230928      0.0498736\n",
  chars! "  4P       15.749086     -0.0059199      0.5886482     -0.3891740      0.1460453\n",
  chars! "  4P       11.794452      0.0017021      0.3494954     -0.4984535      0.2017700\n",
  chars! "  2P        6.817071     -0.0009544      0.0829194      0.2555826     -0.1840762\n",
  chars! "  3P        5.065874      0.0003072     -0.0000684      1.0065627     -0.3549652\n",
  chars! "  3P        3.617986     -0.0000671      0.0004521      0.1806590     -0.4357309\n",
  chars! "  2P        1.304389      0.0000137     -0.0001155      0.0026251      1.2417183\n",
  chars! "  3P        1.205350     -0.0000069      0.0000335     -0.0001878      0.0589944\n",
  chars! "        D                    3D             4D \n",
  chars! "  BASIS/ORB.ENERGY      -24.6333390     -2.7462794\n",
  chars! "              CUSP        1.0009643      0.9991979\n",
  chars! "  3D       55.206878      0.0027957     -0.0006319\n",
  chars! "  4D       44.712489      0.0097982     -0.0022166\n",
  chars! "  4D       27.589169      0.0419619     -0.0063956\n",
  chars! "  3D       15.860443      0.4812522     -0.2515393\n",
  chars! "  4D       14.874501      0.0262984      0.1121274\n",
  chars! "  4D       13.018575      0.3922233     -0.3476807\n",
  chars! "  4D        9.469002      0.1348872     -0.0067565\n",
  chars! "  3D        4.890660      0.0025978      0.6285412\n",
  chars! "  3D        3.350299     -0.0001471      0.4680188\n",
  chars! "  3D        2.218200     -0.0000723      0.0448103\n",
  chars! "  3D        1.205350      0.0000076     -0.0000061\n",
  chars! "\n"]⟩

theorem cation_i_ok : cation_i.ok = true := by decide +kernel

/-- `data/cation/xe`. -/
noncomputable def cation_xe : DataFile := ⟨54, .cation, [
  chars! "      XENON+   K(2)L(8)M(18)4S(2)4P(6)5S(2)4D(10)5P(5), 2P                            \n",
  chars! "\n",
  chars! "\n",
  chars! "\n",
  chars! "\n",
  chars! "   E = -7231.708943297\n",
  chars! "   T =  7231.708943551     V =-14463.417886848     V/T =    -2.000000000\n",
  chars! "\n",
  chars! "  ORBITAL ENERGIES AND EXPANSION COEFFICIENTS\n",
  chars! "        S                    1S             2S             3S             4S             5S \n",
  chars! "  BASIS/ORB.ENERGY    -1224.7702760   -189.7110493    -40.5455571     -8.2240900     -1.2623967\n",
  chars! "              CUSP        1.0002218      1.0000508      1.0002064      1.0003953      1.0003127\n",
  chars! "  1S       96.682543      0.0126532     -0.0213817     -0.0109730      0.0056051     -0.0020535\n",
  chars! "  3S       70.320264     -0.0176855      0.0260472      0.0137602     -0.0071947      0.0026288\n",
  chars! "  1S       56.053992     -0.9648509      0.3528331      0.1609881     -0.0747928      0.0271416\n",
  chars! "  4S       30.819044     -0.1080964      0.3625977      0.1129762     -0.0184832      0.0043997\n",
  chars! "  2S       27.896891     -0.1237666     -0.2038968     -0.1986052      0.2170416     -0.0943675\n",
  chars! "  3S       27.187458      0.2191640     -1.1124099     -0.6609987      0.3704348     -0.1442425\n",
  chars! "  2S       17.015134     -0.0291937     -0.1160976      0.2286864     -0.6845144      0.3261800\n",
  chars! "  4S       15.761583      0.0038790      0.0027316      0.6978861     -0.7190801      0.3138709\n",
  chars! "  4S       12.040613     -0.0030610     -0.0012926      0.3034908     -0.8713257      0.4208134\n",
  chars! "  2S        7.628932      0.0029144      0.0014344      0.0704479      1.2973237     -0.6884700\n",
  chars! "  4S        6.464973     -0.0003060      0.0000546      0.0024904      0.7208448     -0.2293710\n",
  chars! "  3S        4.402103      0.0001279     -0.0000053      0.0000278      0.2740348     -0.7149991\n",
  chars! "  2S        1.646969     -0.0000121     -0.0000060     -0.0001218      0.0015422      1.4243813\n",
  chars! "  3S        1.254007      0.0000034      0.0000004      0.0000104      0.0000622      0.0090254\n",
  chars! "        P                    2P             3P             4P             5P \n",
  chars! "  BASIS/ORB.ENERGY     -178.1532899    -35.5910383     -6.3748703     -0.7862673\n",
  chars! "              CUSP        1.0003813      1.0000061      1.0000035      1.0009648\n",
  chars! "  2P       87.268559     -0.0015768      0.0010383     -0.0005352      0.0001854\n",
  chars! "  4P       57.922849      0.0114263     -0.0076763      0.0040096     -0.0014363\n",
  chars! "  2P       41.459675      0.3040360     -0.1475957      0.0645506     -0.0194213\n",
  chars! "  4P       30.207139     -0.4202753      0.1601248     -0.0505977      0.0086318\n",
  chars! "  3P       27.027404      1.1166534     -0.5320307      0.2123642     -0.0509451\n",
  chars! "  4P       24.765204      0.0423291      0.1023852     -0.0934019      0.0491978\n",
  chars! "  4P       16.375537      0.0087824      0.4948319     -0.2845034      0.1254133\n",
  chars! "  4P       12.587933     -0.0042942      0.3326330     -0.4398413      0.2007194\n",
  chars! "  2P        7.994901      0.0034830      0.2244378     -0.0211723     -0.1166694\n",
  chars! "  3P        5.413937     -0.0004912      0.0010840      1.0233518     -0.3607355\n",
  chars! "  3P        3.952699      0.0001333      0.0004837      0.2442545     -0.4907688\n",
  chars! "  2P        1.402672     -0.0000225     -0.0001510      0.0053554      1.2267891\n",
  chars! "  3P        1.254007      0.0000109      0.0000328     -0.0005814      0.0840936\n",
  chars! "        D                    3D             4D \n",
  chars! "  BASIS/ORB.ENERGY      -26.4886846     -3.1444462\n",
  chars! "              CUSP        1.0000030      0.9999915\n",
  chars! "  3D       59.068381      0.0018662     -0.0004316\n",
  chars! "  4D       47.231482      0.0072043     -0.0016577\n",
  chars! "  4D       28.807652      0.0291854     -0.0041398\n",
  chars! "  3D       17.246487      0.4275860     -0.2183952\n",
  chars! "  4D       14.742147      0.2517949      0.0051908\n",
  chars! "  4D       13.138062      0.2191931     -0.2953384\n",
  chars! "  4D       10.009289      0.1530565     -0.0095762\n",
  chars! "  3D        5.073014      0.0050240      0.6460145\n",
  chars! "  3D        3.545437     -0.0012144      0.4573096\n",
  chars! "  3D        2.343504      0.0001836      0.0431928\n",
  chars! "  3D        1.254007     -0.0000298     -0.0000161\n",
  chars! "\n"]⟩

theorem cation_xe_ok : cation_xe.ok = true := by decide +kernel

/-- Part 14 of the files. -/
noncomputable def part14 : List DataFile := [
  cation_i, cation_xe]

theorem part14_ok : ∀ d ∈ part14, d.ok = true := by
  intro d hd
  unfold part14 at hd
  simp only [List.mem_cons, List.not_mem_nil, or_false] at hd
  rcases hd with rfl | rfl
  · exact cation_i_ok
  · exact cation_xe_ok

end BFit.Data
