import Verif.Data.All
import Verif.Lemmas.FitsScan

/-! Copy of /repo/bfit/data/kl_fpi_results.json and kl_slsqp_results.json, generated by tools/gendata.py. -/

namespace BFit.Data

/-- `cu` in `data/kl_fpi_results.json`. -/
noncomputable def fpi_cu : JEntry := ⟨chars! "cu", chars! "30", chars! "20", [
  chars! "6.716821465208374e-08",
  chars! "1.8276321702336808e-07",
  chars! "2.589472437351048e-07",
  chars! "6.556502859338607e-07",
  chars! "1.0786361972992685e-05",
  chars! "6.696852451314727e-05",
  chars! "0.0002602370365143067",
  chars! "0.000704193951978065",
  chars! "0.0008670392410975673",
  chars! "0.0018842577296102148",
  chars! "0.003562546602018167",
  chars! "0.011013458833825325",
  chars! "0.03136163197157595",
  chars! "0.06974078013002553",
  chars! "0.1296485233060194",
  chars! "0.19859944470657967",
  chars! "0.245067577999024",
  chars! "0.2906251344571823",
  chars! "0.5395683814119482",
  chars! "0.8957998386417737",
  chars! "1.094266186561357",
  chars! "0.8369514068212808",
  chars! "1.0948026443285204",
  chars! "1.778809931259731",
  chars! "2.0520856696353116",
  chars! "1.7592302556522157",
  chars! "1.2383024837493075",
  chars! "0.8197913420438417",
  chars! "0.6841351356538076",
  chars! "0.11091311318243963",
  chars! "0.0023980159162885145",
  chars! "0.007018543997313386",
  chars! "0.01428636302087348",
  chars! "0.037601795116099755",
  chars! "0.06732577670905905",
  chars! "0.12387797782915617",
  chars! "0.20426342584309995",
  chars! "0.2733224291724604",
  chars! "0.27563180949417154",
  chars! "0.3726338549053013",
  chars! "0.9496476574310877",
  chars! "1.287660745738935",
  chars! "1.2480323782533371",
  chars! "0.8133503376899921",
  chars! "2.175350204746903",
  chars! "2.6029968957616965",
  chars! "2.192250667357194",
  chars! "1.2893501216008234",
  chars! "0.7172016809664934",
  chars! "0.45772918398154905"], [
  chars! "3331008.600060524",
  chars! "3331008.5115091",
  chars! "3331008.4388972344",
  chars! "83501.82767674178",
  chars! "83501.8185812926",
  chars! "83501.81579078376",
  chars! "83501.81328871503",
  chars! "83501.80758908148",
  chars! "83482.42079202598",
  chars! "33321.963722919994",
  chars! "7141.099483334921",
  chars! "5630.813524809675",
  chars! "3228.2130148457677",
  chars! "1975.7834263876825",
  chars! "1157.6308197028675",
  chars! "717.6605168104463",
  chars! "434.2573932852483",
  chars! "187.2366448670035",
  chars! "69.68201931011188",
  chars! "42.989227103013754",
  chars! "33.30172643259596",
  chars! "27.422877506348357",
  chars! "4.578770224619176",
  chars! "3.051133789609999",
  chars! "2.2863284591046664",
  chars! "1.584607775240571",
  chars! "1.009295505695298",
  chars! "0.4786330694491832",
  chars! "0.11887881778614749",
  chars! "0.061055931468140576",
  chars! "39197.56491880371",
  chars! "39197.560813546006",
  chars! "11143.585846983286",
  chars! "11126.172043940778",
  chars! "4442.110094240476",
  chars! "2772.8867516088867",
  chars! "1486.9935247884755",
  chars! "870.113487822627",
  chars! "445.0995222569775",
  chars! "135.1053797518297",
  chars! "86.49992361508832",
  chars! "55.540936461445",
  chars! "38.04357265034427",
  chars! "8.007703980422987",
  chars! "6.975418322418234",
  chars! "4.708055442366114",
  chars! "3.0472371542286045",
  chars! "1.6803586214235404",
  chars! "0.8124468487964086",
  chars! "0.3272129258053116"]⟩

/-- `cu` in `data/kl_slsqp_results.json`. -/
noncomputable def slsqp_cu : JEntry := ⟨chars! "cu", chars! "30", chars! "20", [
  chars! "5.688863457579018e-07",
  chars! "6.520037926017103e-07",
  chars! "1.0000001077066671e-12",
  chars! "1.0000523499403122e-12",
  chars! "1.000000000239362e-12",
  chars! "1e-12",
  chars! "1.0000137440455632e-12",
  chars! "0.0006940763035544459",
  chars! "1.000012495655031e-12",
  chars! "0.00047201483463302256",
  chars! "0.041227414946488336",
  chars! "0.006637339869510617",
  chars! "1e-12",
  chars! "0.2911907606633488",
  chars! "0.19058360871698232",
  chars! "0.029106045835968562",
  chars! "0.4974471026552848",
  chars! "0.305959340325173",
  chars! "0.7626556166365154",
  chars! "0.6294349920729714",
  chars! "0.9280217766453932",
  chars! "2.043693404960909",
  chars! "0.17445074905161007",
  chars! "1.481377165404984",
  chars! "2.066162203576599",
  chars! "1.7485723892625837",
  chars! "1.9483607360589728",
  chars! "0.8506060965874404",
  chars! "0.11657667074020221",
  chars! "0.005488290749860621",
  chars! "9.04585293710083e-06",
  chars! "0.0016582363237525783",
  chars! "1.0000014614721625e-12",
  chars! "1e-12",
  chars! "0.030624840791276572",
  chars! "1e-12",
  chars! "0.16680511050230265",
  chars! "0.2571381224603435",
  chars! "0.12353832691010977",
  chars! "0.2373109635809274",
  chars! "0.8335000214717206",
  chars! "1.2815428681880838",
  chars! "0.798748017775857",
  chars! "1.170436124790986",
  chars! "2.0836821846531777",
  chars! "4.274831030290362",
  chars! "2.2081061729136833",
  chars! "0.9160009484768794",
  chars! "0.34388166554033395",
  chars! "0.1534751666968739"], [
  chars! "3331008.6000605137",
  chars! "3331008.5115091",
  chars! "3331008.4388972325",
  chars! "83501.82767746743",
  chars! "83501.81857911585",
  chars! "83501.81579016791",
  chars! "83501.81331175029",
  chars! "83501.80758816474",
  chars! "83482.42079218225",
  chars! "33321.96328559625",
  chars! "7141.099088552418",
  chars! "5630.813195748431",
  chars! "3228.2130155120244",
  chars! "1975.7821999816879",
  chars! "1157.6312471669373",
  chars! "717.6585101089225",
  chars! "434.2684331472593",
  chars! "187.2201582038272",
  chars! "69.6312444395909",
  chars! "43.083281108781755",
  chars! "33.14035523180407",
  chars! "27.151640422336918",
  chars! "3.750595333722362",
  chars! "2.7520806916450833",
  chars! "1.5614938793359987",
  chars! "1.7163458152485276",
  chars! "0.6165945840670439",
  chars! "0.16780594259340206",
  chars! "0.06600018549068459",
  chars! "0.0410690370061675",
  chars! "39197.56492918171",
  chars! "39197.56049483224",
  chars! "11143.585843395373",
  chars! "11126.17204476832",
  chars! "4442.112085045147",
  chars! "2772.8847697822403",
  chars! "1486.9944563606227",
  chars! "870.1118510110391",
  chars! "445.10548222599067",
  chars! "135.14534480720246",
  chars! "86.18774694132317",
  chars! "56.07738838652838",
  chars! "37.027018167755834",
  chars! "8.572483960439106",
  chars! "7.55661212368945",
  chars! "4.735505805402211",
  chars! "2.818795937450998",
  chars! "1.353643822834103",
  chars! "0.40396299873976815",
  chars! "0.12070586058411173"]⟩

theorem fits_cu_ok : fitsOk neutral_cu fpi_cu slsqp_cu = true := by decide +kernel

/-- `zn` in `data/kl_fpi_results.json`. -/
noncomputable def fpi_zn : JEntry := ⟨chars! "zn", chars! "30", chars! "21", [
  chars! "4.031930831379618e-07",
  chars! "1.5010396758587734e-06",
  chars! "2.5323059496272065e-06",
  chars! "8.637072895556467e-06",
  chars! "3.206065813180815e-05",
  chars! "7.943280080643078e-05",
  chars! "0.00016578278058625517",
  chars! "0.00036469550696108374",
  chars! "0.0005175441169364708",
  chars! "0.0013230145745985835",
  chars! "0.003439780799601437",
  chars! "0.011382500475558676",
  chars! "0.034092497028134244",
  chars! "0.07439515623861036",
  chars! "0.13632487363809365",
  chars! "0.2050267811690965",
  chars! "0.24741677689399574",
  chars! "0.3040419205014316",
  chars! "0.582092747587453",
  chars! "0.9325966385519617",
  chars! "1.0801541938958914",
  chars! "0.6939563541533932",
  chars! "1.2703540401678355",
  chars! "1.9431796585325198",
  chars! "2.1229335128200435",
  chars! "1.7144229516660157",
  chars! "1.168957204695257",
  chars! "0.8073146950132297",
  chars! "0.9250040493833845",
  chars! "0.10870278631837366",
  chars! "0.0009238231494476091",
  chars! "0.0027920002446534726",
  chars! "0.006660171962710773",
  chars! "0.015967345871244532",
  chars! "0.03652715899770276",
  chars! "0.08008005115038139",
  chars! "0.12960439001063545",
  chars! "0.21296713953600777",
  chars! "0.27834511446258153",
  chars! "0.2709772478441961",
  chars! "0.43451056777876773",
  chars! "0.999864569951308",
  chars! "1.3172230469728017",
  chars! "1.141271476470524",
  chars! "1.1107604316298385",
  chars! "2.4418966115684375",
  chars! "2.6824872886636717",
  chars! "2.1319704034766485",
  chars! "1.1592227120254073",
  chars! "0.6082869153461543",
  chars! "0.5693768092792196"], [
  chars! "375982.1609908995",
  chars! "375979.88981343416",
  chars! "375976.48970867594",
  chars! "375970.14567447104",
  chars! "375955.3579486574",
  chars! "375652.93591351603",
  chars! "138691.58281048108",
  chars! "137045.96290252273",
  chars! "37012.85978591409",
  chars! "37003.51810959606",
  chars! "7297.051969659804",
  chars! "4833.131195382323",
  chars! "3226.8113779477894",
  chars! "1989.7341874389042",
  chars! "1175.3154745366528",
  chars! "730.4290302558742",
  chars! "444.18480079577887",
  chars! "169.96982501493525",
  chars! "71.17899483980749",
  chars! "45.79672786193885",
  chars! "36.427270724119076",
  chars! "25.944755138456365",
  chars! "4.7843761003520395",
  chars! "3.220200441743728",
  chars! "2.444964340171799",
  chars! "1.715865548358347",
  chars! "1.0120704088349253",
  chars! "0.3759262109184551",
  chars! "0.13160072117889182",
  chars! "0.07103711617857847",
  chars! "161127.79205929535",
  chars! "45271.32811292476",
  chars! "45271.327313729984",
  chars! "12548.46104594892",
  chars! "12533.377930869705",
  chars! "4789.868998838726",
  chars! "2779.9918028476645",
  chars! "1518.3378950317888",
  chars! "879.9972670388805",
  chars! "445.272073804424",
  chars! "134.46635422935964",
  chars! "89.62319374062668",
  chars! "56.6553286486164",
  chars! "41.430137650243985",
  chars! "8.557196837208494",
  chars! "7.474952409828396",
  chars! "4.85186520806286",
  chars! "3.169139736209503",
  chars! "1.650837028654418",
  chars! "0.7216269504809828",
  chars! "0.301882005704384"]⟩

/-- `zn` in `data/kl_slsqp_results.json`. -/
noncomputable def slsqp_zn : JEntry := ⟨chars! "zn", chars! "30", chars! "21", [
  chars! "1e-12",
  chars! "1.0000002382034673e-12",
  chars! "1e-12",
  chars! "1.000000885495152e-12",
  chars! "1e-12",
  chars! "6.149031732466985e-05",
  chars! "1e-12",
  chars! "9.717506164923959e-05",
  chars! "1.0000006155906553e-12",
  chars! "0.0008176597257007484",
  chars! "0.06534945664015562",
  chars! "0.0005275188727702009",
  chars! "1.0000070025863678e-12",
  chars! "0.041692290972493266",
  chars! "0.5862344174910246",
  chars! "1e-12",
  chars! "0.5732437211990982",
  chars! "0.22477247367501477",
  chars! "1.039549619109889",
  chars! "1.0286562986709458",
  chars! "1.267258012335892",
  chars! "1.6301621697299709",
  chars! "0.0013570899374051367",
  chars! "1.0652446930122448",
  chars! "1.981668226123294",
  chars! "1.433276662136109",
  chars! "1.742288465575548",
  chars! "1.473714310659301",
  chars! "0.15152554445834218",
  chars! "0.006232560791388235",
  chars! "0.00028295855745752137",
  chars! "0.0013568400953135901",
  chars! "1.000000000239362e-12",
  chars! "1e-12",
  chars! "1.0000020400563002e-12",
  chars! "0.05786888578406149",
  chars! "0.040889466074034465",
  chars! "1.000001753734158e-12",
  chars! "0.21858053622200962",
  chars! "0.08414741001496356",
  chars! "0.147055039790048",
  chars! "0.7653325699693512",
  chars! "1.0257903129860357",
  chars! "0.7562964006923795",
  chars! "1.6840472645892968",
  chars! "2.0044669454521937",
  chars! "4.853826265150555",
  chars! "2.534899777784825",
  chars! "0.8492847958385557",
  chars! "0.4348121377015175",
  chars! "0.2273471984552656"], [
  chars! "375982.1609908995",
  chars! "375979.88981343416",
  chars! "375976.4897087709",
  chars! "375970.1456745669",
  chars! "375955.35794861475",
  chars! "375652.9359145764",
  chars! "138691.5828108235",
  chars! "137045.96288402862",
  chars! "37012.8598043521",
  chars! "37003.51919663388",
  chars! "7297.013607923947",
  chars! "4833.140513274262",
  chars! "3226.811362024077",
  chars! "1989.6656140855387",
  chars! "1175.3398670362376",
  chars! "730.4225478461434",
  chars! "443.9672857505607",
  chars! "169.85729650496884",
  chars! "71.19709511842767",
  chars! "45.780400772575206",
  chars! "36.119141091279914",
  chars! "26.42847148075574",
  chars! "3.606518765421899",
  chars! "2.5021034641633073",
  chars! "1.5736047623669327",
  chars! "2.3306243070401926",
  chars! "0.6912194892439169",
  chars! "0.19642331790640083",
  chars! "0.07985491288479031",
  chars! "0.04994976394640239",
  chars! "161127.79205529523",
  chars! "45271.32620602433",
  chars! "45271.323901769254",
  chars! "12548.461043761108",
  chars! "12533.377933698097",
  chars! "4789.856708322572",
  chars! "2779.9578024493308",
  chars! "1518.3630523653555",
  chars! "880.0033433134182",
  chars! "445.30201551886995",
  chars! "134.53791576130288",
  chars! "89.24535944226893",
  chars! "57.223694158172876",
  chars! "40.807672832787745",
  chars! "9.627122356192144",
  chars! "8.042320441482074",
  chars! "5.210760327056054",
  chars! "3.1166976095617507",
  chars! "1.6314578283995398",
  chars! "0.44438506825795343",
  chars! "0.14328463200653208"]⟩

theorem fits_zn_ok : fitsOk neutral_zn fpi_zn slsqp_zn = true := by decide +kernel

/-- `ga` in `data/kl_fpi_results.json`. -/
noncomputable def fpi_ga : JEntry := ⟨chars! "ga", chars! "30", chars! "22", [
  chars! "4.096873419033111e-08",
  chars! "1.2394827036372854e-07",
  chars! "2.1720577591290204e-07",
  chars! "1.0672984417134955e-06",
  chars! "1.839406879996876e-05",
  chars! "0.00011198494431052758",
  chars! "0.00042859728450684166",
  chars! "0.0011357272846378962",
  chars! "0.0008171850252554282",
  chars! "0.0019478810588028873",
  chars! "0.0039808131349724695",
  chars! "0.012754591369853132",
  chars! "0.03741182030695689",
  chars! "0.07995355689835514",
  chars! "0.1434077394049758",
  chars! "0.21254092890690363",
  chars! "0.25120313352217294",
  chars! "0.33066680419566236",
  chars! "0.6465977908355148",
  chars! "1.0067247239494042",
  chars! "1.1167577467819652",
  chars! "0.5070870029622055",
  chars! "1.3647936278946757",
  chars! "2.010370911946333",
  chars! "2.0910660028371377",
  chars! "1.5972317518957941",
  chars! "1.0507997469220942",
  chars! "0.7774576233060498",
  chars! "0.6456311387672069",
  chars! "0.43594974655540647",
  chars! "0.0028268141555230475",
  chars! "0.0065957377888092835",
  chars! "0.01720922147264192",
  chars! "0.03832179593537815",
  chars! "0.08653529708281707",
  chars! "0.13720128009232477",
  chars! "0.22043513827262673",
  chars! "0.285871368042816",
  chars! "0.26864190473487065",
  chars! "0.5158026113762649",
  chars! "1.0956079028623606",
  chars! "1.4034481225240303",
  chars! "1.1042621754304967",
  chars! "1.3711387865172622",
  chars! "2.69554213322497",
  chars! "2.704548543741657",
  chars! "1.9989351227646348",
  chars! "0.9771734761248462",
  chars! "0.6431296617063103",
  chars! "0.6588181744077359",
  chars! "0.4264087416227523",
  chars! "0.014697568637695745"], [
  chars! "4495101.057125117",
  chars! "4495100.994400813",
  chars! "4495100.948589892",
  chars! "99518.43062386925",
  chars! "99518.4293128279",
  chars! "99518.42895837461",
  chars! "99518.42862170126",
  chars! "99518.4277073609",
  chars! "37957.677534587485",
  chars! "37867.5483224558",
  chars! "7786.546316680893",
  chars! "4976.66187154657",
  chars! "3292.1602148756715",
  chars! "2023.8318638041796",
  chars! "1194.9136301470821",
  chars! "739.1926025590232",
  chars! "451.8610448804677",
  chars! "152.84467245697806",
  chars! "72.12537979214942",
  chars! "47.51294070963441",
  chars! "39.042895916933226",
  chars! "11.367132089275863",
  chars! "4.737786563975601",
  chars! "3.327790901441335",
  chars! "2.5832339481284046",
  chars! "1.8818062628478769",
  chars! "0.9652508830117202",
  chars! "0.37406404835328594",
  chars! "0.21030589594899032",
  chars! "0.08291877209442769",
  chars! "44751.42222228066",
  chars! "44751.42151336052",
  chars! "12742.559698362893",
  chars! "12721.61938603878",
  chars! "4852.666304539568",
  chars! "2794.3274941547584",
  chars! "1534.7784109446375",
  chars! "883.9573820732295",
  chars! "432.1328434791629",
  chars! "134.72758189949386",
  chars! "92.31550781335473",
  chars! "56.130896204960436",
  chars! "44.26298784353938",
  chars! "8.73232999789438",
  chars! "7.925544039085474",
  chars! "5.106728693138701",
  chars! "3.365713976614688",
  chars! "1.7557814463487618",
  chars! "0.6587241383373799",
  chars! "0.3266618122797908",
  chars! "0.17937089442627657",
  chars! "0.050995354211931194"]⟩

/-- `ga` in `data/kl_slsqp_results.json`. -/
noncomputable def slsqp_ga : JEntry := ⟨chars! "ga", chars! "30", chars! "22", [
  chars! "3.730924686723507e-07",
  chars! "5.349521910576557e-07",
  chars! "6.48582265550403e-08",
  chars! "1e-12",
  chars! "0.0006162646966929317",
  chars! "1.0000037524246123e-12",
  chars! "1.0000531520714153e-12",
  chars! "1e-12",
  chars! "1e-12",
  chars! "0.0006734137541040177",
  chars! "0.058780464812169114",
  chars! "0.07443511242110283",
  chars! "1.0000002933438878e-12",
  chars! "1e-12",
  chars! "0.0963719584003214",
  chars! "0.22057491580531177",
  chars! "0.6150272191359473",
  chars! "0.05746875454541503",
  chars! "1.2226446807659073",
  chars! "1.959822363645107",
  chars! "2.5479784659561493",
  chars! "0.013822821537458124",
  chars! "1.2705533462598895",
  chars! "1.8943738305436526",
  chars! "1.9922040099470435",
  chars! "1.471275338889903",
  chars! "2.153746287894483",
  chars! "1.4900657176145649",
  chars! "0.9990818869758801",
  chars! "0.05063457888713345",
  chars! "1e-12",
  chars! "0.0015774559633856078",
  chars! "1e-12",
  chars! "1.0000012968765118e-12",
  chars! "0.08478730617142428",
  chars! "0.17688701169965632",
  chars! "0.2059176490322582",
  chars! "0.1117230494926076",
  chars! "0.028622609595265237",
  chars! "1.0000006049258673e-12",
  chars! "0.5656531161850701",
  chars! "0.27187295815738277",
  chars! "0.9480069121503638",
  chars! "1.2180008145768062",
  chars! "2.1867732683724306",
  chars! "3.677813827798363",
  chars! "1.5931526754109402",
  chars! "0.5986359657161423",
  chars! "0.5274165830184439",
  chars! "0.5093808742202153",
  chars! "0.10310847765764485",
  chars! "0.0005245218415550327"], [
  chars! "4495101.057125117",
  chars! "4495100.994400813",
  chars! "4495100.948589891",
  chars! "99518.43058015134",
  chars! "99518.4292963238",
  chars! "99518.42895984004",
  chars! "99518.42873077687",
  chars! "99518.42772636481",
  chars! "37957.677530828834",
  chars! "37867.548210308916",
  chars! "7786.55024566994",
  chars! "4976.663054558058",
  chars! "3292.160228879087",
  chars! "2023.8703370619073",
  chars! "1194.9137208376833",
  chars! "739.1963925544447",
  chars! "451.86889903731367",
  chars! "152.72560680642184",
  chars! "71.8322749007563",
  chars! "47.72306322231903",
  chars! "38.640505316084685",
  chars! "11.34214032397167",
  chars! "4.396505024932251",
  chars! "3.6404621021315666",
  chars! "2.578579685056817",
  chars! "1.623014262588934",
  chars! "1.6973585997030083",
  chars! "0.2311250203859226",
  chars! "0.12856982136677436",
  chars! "0.049494361846796966",
  chars! "44751.42228177444",
  chars! "44751.421447081404",
  chars! "12742.559697533865",
  chars! "12721.619387761526",
  chars! "4852.674500600895",
  chars! "2794.3264377272003",
  chars! "1534.7803417951263",
  chars! "883.9554947385005",
  chars! "432.133033516116",
  chars! "134.80352580069763",
  chars! "90.9913746555053",
  chars! "57.06649186513664",
  chars! "41.31945351061652",
  chars! "9.064984584960623",
  chars! "9.005351789108449",
  chars! "5.3656992977350635",
  chars! "3.1878542080646337",
  chars! "1.273682764018697",
  chars! "0.800552591242111",
  chars! "0.4850769888073683",
  chars! "0.09148666861685503",
  chars! "0.0337233493594406"]⟩

theorem fits_ga_ok : fitsOk neutral_ga fpi_ga slsqp_ga = true := by decide +kernel

/-- `ge` in `data/kl_fpi_results.json`. -/
noncomputable def fpi_ge : JEntry := ⟨chars! "ge", chars! "30", chars! "22", [
  chars! "3.3922479360353724e-08",
  chars! "1.1549139864056096e-07",
  chars! "2.3822157780362267e-07",
  chars! "1.0269646334638134e-06",
  chars! "1.8494585982700252e-05",
  chars! "0.00011055145789558009",
  chars! "0.00041799691145651585",
  chars! "0.0010914570832058564",
  chars! "0.0009220112689223567",
  chars! "0.0019939914061774945",
  chars! "0.0044472418023262655",
  chars! "0.014319025768859834",
  chars! "0.04111487846135818",
  chars! "0.08562297188524527",
  chars! "0.15020720706448898",
  chars! "0.2177890829908246",
  chars! "0.25215900301157057",
  chars! "0.34945941820473664",
  chars! "0.6759789331775463",
  chars! "1.0199221896511284",
  chars! "1.0829203482097856",
  chars! "0.75616411417005",
  chars! "1.575352485173602",
  chars! "2.1540047093588566",
  chars! "2.1009650633064916",
  chars! "1.5089113553284463",
  chars! "0.9728655570167432",
  chars! "0.8979072076975383",
  chars! "0.7244043378314261",
  chars! "0.4777008063265636",
  chars! "0.003152163997935434",
  chars! "0.006112993380485834",
  chars! "0.01871382717398997",
  chars! "0.036959286767752765",
  chars! "0.09611420488132191",
  chars! "0.1437737782927561",
  chars! "0.22741020346825305",
  chars! "0.2874555794385395",
  chars! "0.2613220472138335",
  chars! "0.5758415288538723",
  chars! "1.114823559445525",
  chars! "1.3989595677003472",
  chars! "0.9721479674113789",
  chars! "1.5927172321476726",
  chars! "2.7808576595869248",
  chars! "2.714847173292822",
  chars! "1.8254874180050475",
  chars! "0.789786643550382",
  chars! "0.8713975148681861",
  chars! "0.7948717550119645",
  chars! "0.403350459910693",
  chars! "0.017125581795605287"], [
  chars! "4749614.211200682",
  chars! "4749614.082634228",
  chars! "4749613.997232725",
  chars! "107030.9643104215",
  chars! "107030.96015464702",
  chars! "107030.9591713025",
  chars! "107030.95818011917",
  chars! "107030.95485381091",
  chars! "40360.45308796616",
  chars! "40281.020032270484",
  chars! "8553.71997484583",
  chars! "4882.662137653538",
  chars! "3383.7987685941416",
  chars! "2061.0252751759576",
  chars! "1223.80532504064",
  chars! "752.3905513610011",
  chars! "461.2355573930455",
  chars! "141.51346397694783",
  chars! "73.19979489982076",
  chars! "50.090820386066",
  chars! "40.849203338261454",
  chars! "8.737418816069344",
  chars! "5.10954982941283",
  chars! "3.649491450817215",
  chars! "2.7794989747443073",
  chars! "2.042819911106691",
  chars! "0.7506005325727255",
  chars! "0.34328768222608",
  chars! "0.23623097531565326",
  chars! "0.10643967384216686",
  chars! "47803.280398807416",
  chars! "47803.27797040724",
  chars! "13614.367156782095",
  chars! "13564.798101957453",
  chars! "5061.684599370755",
  chars! "2785.4544926398007",
  chars! "1560.6224882670497",
  chars! "888.7232465588404",
  chars! "432.3103747379234",
  chars! "143.63705583220957",
  chars! "94.73615822878973",
  chars! "59.44881786483019",
  chars! "47.07007868489993",
  chars! "9.723401671845608",
  chars! "8.091199866439014",
  chars! "5.291442488454435",
  chars! "3.4818902344865745",
  chars! "1.7806505806355235",
  chars! "0.6155837384078117",
  chars! "0.32616652751768366",
  chars! "0.19225184053790986",
  chars! "0.0695671510570399"]⟩

/-- `ge` in `data/kl_slsqp_results.json`. -/
noncomputable def slsqp_ge : JEntry := ⟨chars! "ge", chars! "30", chars! "22", [
  chars! "1.0006172453770643e-12",
  chars! "5.484431180219656e-07",
  chars! "4.605919889068903e-07",
  chars! "1.0012390550104918e-12",
  chars! "1.0090100992749518e-12",
  chars! "0.0005681503680103931",
  chars! "1.0102588830515165e-12",
  chars! "1.0092181619484306e-12",
  chars! "1.0004063505235378e-12",
  chars! "0.0007785256614354708",
  chars! "0.05377383535061387",
  chars! "0.09099001451325366",
  chars! "1.0032797508271206e-12",
  chars! "1e-12",
  chars! "1e-12",
  chars! "0.5108823970037045",
  chars! "0.5612740606471492",
  chars! "0.3566796331678781",
  chars! "0.8872801989183368",
  chars! "1.3003108686729417",
  chars! "2.455861427193452",
  chars! "0.13454229314734595",
  chars! "1.5459893082806044",
  chars! "2.16963118515545",
  chars! "2.050292113900777",
  chars! "1.7397500985411434",
  chars! "0.36382497947003944",
  chars! "1.364918888803075",
  chars! "0.8606830983576822",
  chars! "0.11542243194273173",
  chars! "1e-12",
  chars! "0.0013803668704406096",
  chars! "1e-12",
  chars! "1.0000005050072525e-12",
  chars! "0.0840173554296095",
  chars! "0.19026745063578582",
  chars! "0.17368445617601938",
  chars! "1e-12",
  chars! "0.03275717398533727",
  chars! "0.1660167153824218",
  chars! "0.9810961735339873",
  chars! "0.5197982185864417",
  chars! "0.8973879064380533",
  chars! "2.1941815869464194",
  chars! "1.8170590798532436",
  chars! "3.9657023197293206",
  chars! "1.4248132715774973",
  chars! "0.9008968548049212",
  chars! "0.9816486555298681",
  chars! "0.87431090220978",
  chars! "0.23020224578938417",
  chars! "0.0013335774206954746"], [
  chars! "4749614.2112006815",
  chars! "4749614.082634226",
  chars! "4749613.997232722",
  chars! "107030.9643133675",
  chars! "107030.96015170414",
  chars! "107030.95891753938",
  chars! "107030.95791487995",
  chars! "107030.95485325149",
  chars! "40360.45308020344",
  chars! "40281.01820165128",
  chars! "8553.708743196514",
  chars! "4882.649119188053",
  chars! "3383.804939434395",
  chars! "2061.023141593827",
  chars! "1223.8118348309763",
  chars! "752.3737301657603",
  chars! "461.1488850478886",
  chars! "141.53371001753877",
  chars! "73.07078765371028",
  chars! "50.26857746918637",
  chars! "40.33489507138454",
  chars! "8.729079546082708",
  chars! "4.7733966193419155",
  chars! "3.6782683587288356",
  chars! "2.6232420389869726",
  chars! "1.2619281567389382",
  chars! "1.0757372790740822",
  chars! "0.18796619062222136",
  chars! "0.22249666039696778",
  chars! "0.07503620729792122",
  chars! "47803.27696311228",
  chars! "47803.27647520168",
  chars! "13614.367155198812",
  chars! "13564.798103276195",
  chars! "5061.683232872386",
  chars! "2785.4703239704295",
  chars! "1560.6392109723738",
  chars! "888.7333111485184",
  chars! "432.3126860507979",
  chars! "143.74850604805388",
  chars! "93.67638502857477",
  chars! "60.25755825260256",
  chars! "44.963429324203595",
  chars! "10.463594644533677",
  chars! "8.698251894531753",
  chars! "5.690911686168109",
  chars! "3.502849413968564",
  chars! "2.737280646618265",
  chars! "0.7304661496727173",
  chars! "0.43142355061049775",
  chars! "0.14025255303845802",
  chars! "0.05019354963448183"]⟩

theorem fits_ge_ok : fitsOk neutral_ge fpi_ge slsqp_ge = true := by decide +kernel

/-- `as` in `data/kl_fpi_results.json`. -/
noncomputable def fpi_as : JEntry := ⟨chars! "as", chars! "30", chars! "22", [
  chars! "3.899562330865862e-09",
  chars! "2.187167588794559e-08",
  chars! "6.997599998040212e-08",
  chars! "1.243872626574372e-07",
  chars! "2.1911020113818457e-06",
  chars! "2.3704859977851655e-05",
  chars! "0.00012435258961034193",
  chars! "0.0004242493485222553",
  chars! "0.0006938820822965164",
  chars! "0.0011731705351860852",
  chars! "0.002249107849946455",
  chars! "0.004731583463591653",
  chars! "0.015258366029225942",
  chars! "0.04426731929991884",
  chars! "0.09076675010351576",
  chars! "0.1566991227602891",
  chars! "0.22280025499701314",
  chars! "0.2525333684162577",
  chars! "0.372311220436022",
  chars! "0.7074608513665223",
  chars! "1.0339729858895426",
  chars! "1.039867716578948",
  chars! "0.9245215693614575",
  chars! "1.7708484629697854",
  chars! "2.2789817050903123",
  chars! "2.0916232482549972",
  chars! "1.464175424005043",
  chars! "1.0200455623916571",
  chars! "1.0288986442988737",
  chars! "0.830331615570738",
  chars! "0.008269568280209815",
  chars! "0.004662742897884532",
  chars! "0.02309104703857434",
  chars! "0.027648830177373115",
  chars! "0.10992282673644745",
  chars! "0.15042071680076713",
  chars! "0.23496510584007602",
  chars! "0.2892568882035936",
  chars! "0.2481610839632854",
  chars! "0.6530100571345536",
  chars! "1.134631937344145",
  chars! "1.3985835806494702",
  chars! "0.8062218060168909",
  chars! "1.8922754553048688",
  chars! "2.942351572303928",
  chars! "2.7665896248878785",
  chars! "1.6457834554399697",
  chars! "0.6639459063255287",
  chars! "1.1285157375563044",
  chars! "0.9416190048026107",
  chars! "0.5246755224659184",
  chars! "0.050610879959304314"], [
  chars! "6912077.870535723",
  chars! "6912076.517294441",
  chars! "6912076.11650662",
  chars! "6912075.643384742",
  chars! "127580.40257790791",
  chars! "127580.4023206967",
  chars! "127580.40221989635",
  chars! "127580.40206698666",
  chars! "127580.37849059199",
  chars! "44900.87095909917",
  chars! "44897.57478831102",
  chars! "9761.135509895515",
  chars! "4659.785332836078",
  chars! "3406.116227882479",
  chars! "2075.8435417235705",
  chars! "1248.6800485548956",
  chars! "761.6846821297764",
  chars! "472.7123757337981",
  chars! "133.24192583017685",
  chars! "74.35012509785311",
  chars! "52.90933974817854",
  chars! "43.88452260076383",
  chars! "8.494899243719859",
  chars! "5.273263859799844",
  chars! "3.9851549189104194",
  chars! "2.9405970265717727",
  chars! "1.9473028488515483",
  chars! "0.5733521864717949",
  chars! "0.3270993783864081",
  chars! "0.23631782507131013",
  chars! "53924.09334561765",
  chars! "15206.208713352373",
  chars! "15205.395703825208",
  chars! "14888.190380151247",
  chars! "5356.203005154368",
  chars! "2767.324351940903",
  chars! "1587.5684049357237",
  chars! "883.0203379116962",
  chars! "425.1785072610114",
  chars! "150.49586202293648",
  chars! "96.64160402599599",
  chars! "61.40980292526436",
  chars! "50.54421246424583",
  chars! "10.88532494817348",
  chars! "8.306239212040227",
  chars! "5.5967476430142415",
  chars! "3.482916318124793",
  chars! "1.204984557632511",
  chars! "0.6135892595312654",
  chars! "0.354099406826464",
  chars! "0.19021576521766204",
  chars! "0.10482412110269868"]⟩

/-- `as` in `data/kl_slsqp_results.json`. -/
noncomputable def slsqp_as : JEntry := ⟨chars! "as", chars! "30", chars! "22", [
  chars! "1e-12",
  chars! "1e-12",
  chars! "4.5471849928696147e-07",
  chars! "1.7339083915284073e-07",
  chars! "1.0000252003165757e-12",
  chars! "1.0000699167189535e-12",
  chars! "1e-12",
  chars! "9.99999999392329e-13",
  chars! "0.000442062868558108",
  chars! "1e-12",
  chars! "0.0008841385272010066",
  chars! "0.03773021751611475",
  chars! "0.08268152994131238",
  chars! "0.10220936314589699",
  chars! "1.0000294178136639e-12",
  chars! "1e-12",
  chars! "0.5077009980261564",
  chars! "0.5409265287793935",
  chars! "0.7333116456884269",
  chars! "0.8706092104095327",
  chars! "0.9950795585307245",
  chars! "1.462444742988262",
  chars! "0.27910117808148543",
  chars! "1.6181772894419644",
  chars! "2.2454263858894286",
  chars! "2.109219007833762",
  chars! "0.9984900960540858",
  chars! "1.8188422356585783",
  chars! "1.6498169838917225",
  chars! "1.6670704423278422",
  chars! "0.0011706358259963947",
  chars! "1e-12",
  chars! "1e-12",
  chars! "1.0000007533850888e-12",
  chars! "0.04377044689591255",
  chars! "0.18575198491556136",
  chars! "0.1845330887953122",
  chars! "1.000001750493057e-12",
  chars! "0.01241494188098534",
  chars! "0.1796412554660381",
  chars! "1.3980363025624072",
  chars! "0.5639597843668764",
  chars! "1.3317189468941157",
  chars! "2.638094707192069",
  chars! "2.6177547120077818",
  chars! "3.38880046183434",
  chars! "1.6945804159976066",
  chars! "0.31963887127705903",
  chars! "0.5613056883345712",
  chars! "0.14223539171594654",
  chars! "0.016071626980354723",
  chars! "0.0003738326707975578"], [
  chars! "6912077.870535723",
  chars! "6912076.517294441",
  chars! "6912076.11650662",
  chars! "6912075.643384742",
  chars! "127580.40258194348",
  chars! "127580.40232640081",
  chars! "127580.40222048888",
  chars! "127580.40208192679",
  chars! "127580.3784905963",
  chars! "44900.87073999504",
  chars! "44897.57493987374",
  chars! "9761.136078391793",
  chars! "4659.784567239784",
  chars! "3406.1157015439067",
  chars! "2075.8430981359706",
  chars! "1248.680012550623",
  chars! "761.6887148402205",
  chars! "472.71720843302217",
  chars! "133.25151382939367",
  chars! "74.32188442958554",
  chars! "52.90587371773808",
  chars! "43.72364392449289",
  chars! "8.429688846719982",
  chars! "4.944437177894875",
  chars! "3.939513673154146",
  chars! "3.0104139723295145",
  chars! "1.4999475689438533",
  chars! "0.3833808740568821",
  chars! "0.1921751379992372",
  chars! "0.4800633695985341",
  chars! "53924.09386818109",
  chars! "15206.208711813539",
  chars! "15205.395703457572",
  chars! "14888.190350280789",
  chars! "5356.203658088263",
  chars! "2767.3273563849716",
  chars! "1587.5660492820198",
  chars! "883.0211651683398",
  chars! "425.1789361207722",
  chars! "150.5232305459623",
  chars! "96.40971622244888",
  chars! "61.40759212470508",
  chars! "50.09462577697609",
  chars! "11.37141723242964",
  chars! "8.247378516826272",
  chars! "5.659111036375387",
  chars! "3.2564705257784015",
  chars! "0.8352538186734431",
  chars! "0.3427874847252589",
  chars! "0.14149935994516602",
  chars! "0.09326947041474454",
  chars! "0.0595794128139063"]⟩

theorem fits_as_ok : fitsOk neutral_as fpi_as slsqp_as = true := by decide +kernel

/-- `se` in `data/kl_fpi_results.json`. -/
noncomputable def fpi_se : JEntry := ⟨chars! "se", chars! "30", chars! "21", [
  chars! "1.199781721159932e-07",
  chars! "1.5238463692664507e-07",
  chars! "5.711696785397344e-07",
  chars! "7.726970387681795e-06",
  chars! "4.20710811245035e-05",
  chars! "0.00014495917606951433",
  chars! "0.0003459231251932053",
  chars! "0.0007236227146063978",
  chars! "0.0004584295099179183",
  chars! "0.0012976868511553534",
  chars! "0.0023888896212908347",
  chars! "0.005234787718709851",
  chars! "0.016869071618025873",
  chars! "0.0478479992260954",
  chars! "0.09596655394272259",
  chars! "0.1639152173241103",
  chars! "0.2289658043306443",
  chars! "0.2552016537395838",
  chars! "0.40039313991561",
  chars! "0.7495002156872174",
  chars! "1.0599401677769351",
  chars! "1.0032095111823711",
  chars! "1.0506906812407912",
  chars! "1.9055582823236434",
  chars! "2.3242576023970285",
  chars! "2.0006016228942665",
  chars! "1.3041505416740795",
  chars! "1.195782698707333",
  chars! "1.1319085672682991",
  chars! "0.8615442150703805",
  chars! "0.008640175578013044",
  chars! "0.026349472730500832",
  chars! "0.03274222643035555",
  chars! "0.11885995762165576",
  chars! "0.15600069778503467",
  chars! "0.24508720713820806",
  chars! "0.29298022404827",
  chars! "0.22855750996524085",
  chars! "0.755553217207073",
  chars! "1.1754471597441214",
  chars! "1.4100237282700856",
  chars! "0.5761632556940881",
  chars! "2.188516283814745",
  chars! "3.0770671153081355",
  chars! "2.68559699246242",
  chars! "1.4230110387332355",
  chars! "1.045028131106669",
  chars! "1.200546489997649",
  chars! "0.9840932698284472",
  chars! "0.5128405626455456",
  chars! "0.04994679721709348"], [
  chars! "6543071.847723913",
  chars! "6543071.470761465",
  chars! "131169.92110370434",
  chars! "131169.9210143696",
  chars! "131169.9209947403",
  chars! "131169.92097806264",
  chars! "131169.92093875803",
  chars! "131169.92061743123",
  chars! "44890.533173491065",
  chars! "44884.79012948312",
  chars! "44880.627549644705",
  chars! "9703.422198554359",
  chars! "4641.549991584809",
  chars! "3468.5202666911314",
  chars! "2092.0332576864594",
  chars! "1267.3238184335116",
  chars! "764.7535179257605",
  chars! "483.36071952518586",
  chars! "127.31541774155569",
  chars! "75.2331630355945",
  chars! "55.96390596328566",
  chars! "47.03687937855854",
  chars! "8.39275096935553",
  chars! "5.447606855421214",
  chars! "4.240001119107924",
  chars! "3.317712891060755",
  chars! "1.7483256298278094",
  chars! "0.6019934908356792",
  chars! "0.34807880203848196",
  chars! "0.25384858134533944",
  chars! "54170.899918702395",
  chars! "15298.290052476903",
  chars! "15176.382930201939",
  chars! "5390.557859120174",
  chars! "2755.2477998391737",
  chars! "1601.6696098822536",
  chars! "858.6146397842946",
  chars! "398.53962230589536",
  chars! "154.84280488075524",
  chars! "96.11636130801072",
  chars! "63.29826882930783",
  chars! "51.36899287534499",
  chars! "11.779709895597021",
  chars! "8.914509890165519",
  chars! "5.8943880865902125",
  chars! "3.941561154888153",
  chars! "1.0071509460205366",
  chars! "0.6249422407317524",
  chars! "0.3841903063423593",
  chars! "0.2067021666717123",
  chars! "0.11524015143490206"]⟩

/-- `se` in `data/kl_slsqp_results.json`. -/
noncomputable def slsqp_se : JEntry := ⟨chars! "se", chars! "30", chars! "21", [
  chars! "1.0166850339280903e-07",
  chars! "6.413457846777117e-07",
  chars! "0.00031198656496517256",
  chars! "1e-12",
  chars! "1.0000021300590758e-12",
  chars! "0.00014936685539965473",
  chars! "1.0000132747958277e-12",
  chars! "1.0000015648886392e-12",
  chars! "1e-12",
  chars! "1e-12",
  chars! "0.0010853206378866737",
  chars! "0.04399153021349439",
  chars! "0.08019503501742112",
  chars! "0.1152051698826642",
  chars! "1.000014974091834e-12",
  chars! "1e-12",
  chars! "0.5602352802759407",
  chars! "0.47176392839125764",
  chars! "0.8349369528887335",
  chars! "0.9191316627855612",
  chars! "0.9714394743226414",
  chars! "1.087828678608402",
  chars! "0.21413483436888475",
  chars! "1.6685860060386635",
  chars! "2.2126292287595573",
  chars! "1.962673922858939",
  chars! "0.7480254302587006",
  chars! "1.8540177353898077",
  chars! "1.7987364652825582",
  chars! "1.517067657702832",
  chars! "0.001248912534607644",
  chars! "1.0000039290880787e-12",
  chars! "1e-12",
  chars! "0.04948933618596673",
  chars! "0.1986778348972468",
  chars! "0.18240628878853168",
  chars! "1.0000007467785322e-12",
  chars! "0.046218046619232726",
  chars! "0.34170737857542616",
  chars! "1.4545167504354415",
  chars! "0.7099002213327698",
  chars! "1.2258872632495357",
  chars! "2.942332956722846",
  chars! "2.952269660849466",
  chars! "3.202067957671948",
  chars! "1.4903096427769584",
  chars! "0.6581890643568485",
  chars! "1.0440846978260097",
  chars! "0.37983989130937273",
  chars! "0.056785773803203037",
  chars! "0.00193093885078385"], [
  chars! "6543071.847723913",
  chars! "6543071.470761465",
  chars! "131169.92108208014",
  chars! "131169.92101200004",
  chars! "131169.92099458637",
  chars! "131169.9217162028",
  chars! "131169.92093808146",
  chars! "131169.9206085101",
  chars! "44890.53319707434",
  chars! "44884.79015565004",
  chars! "44880.627800388604",
  chars! "9703.423622250142",
  chars! "4641.548474973791",
  chars! "3468.5060948856362",
  chars! "2092.0227179944077",
  chars! "1267.319782770501",
  chars! "764.7602107383656",
  chars! "483.387495925",
  chars! "127.33258504515044",
  chars! "75.28767310718447",
  chars! "56.00088823439751",
  chars! "47.00198561171276",
  chars! "8.240081866890142",
  chars! "5.163796910082991",
  chars! "4.042064892751425",
  chars! "3.1449546009909293",
  chars! "1.7655296690688511",
  chars! "0.39449884763583115",
  chars! "0.41347761350830875",
  chars! "0.49629348986494165",
  chars! "54170.89823899033",
  chars! "15298.290051894599",
  chars! "15176.382921993982",
  chars! "5390.553879013759",
  chars! "2755.239302559609",
  chars! "1601.667602505687",
  chars! "858.6088774209292",
  chars! "398.54329628319044",
  chars! "154.81288463412938",
  chars! "96.02702363648507",
  chars! "63.18631868664806",
  chars! "51.294977889541144",
  chars! "12.533447226773127",
  chars! "8.718262319622928",
  chars! "6.298832077226512",
  chars! "3.865515495353806",
  chars! "0.9602428300707517",
  chars! "0.3086674764049219",
  chars! "0.19656405235907845",
  chars! "0.12434882952614887",
  chars! "0.0777884696924762"]⟩

theorem fits_se_ok : fitsOk neutral_se fpi_se slsqp_se = true := by decide +kernel

/-- `br` in `data/kl_fpi_results.json`. -/
noncomputable def fpi_br : JEntry := ⟨chars! "br", chars! "30", chars! "21", [
  chars! "6.162031665594244e-09",
  chars! "3.277035726035182e-08",
  chars! "1.0095845339109622e-07",
  chars! "1.6363516584222025e-07",
  chars! "2.9463862180696207e-06",
  chars! "3.0173751978114896e-05",
  chars! "0.0001546810499560555",
  chars! "0.0005171566810330513",
  chars! "0.0006573443751224755",
  chars! "0.0013415204877988342",
  chars! "0.0023414166456773534",
  chars! "0.007223138211707268",
  chars! "0.018012862285398726",
  chars! "0.05039760720812382",
  chars! "0.10024152580718831",
  chars! "0.17124745723902898",
  chars! "0.23562324293481907",
  chars! "0.2655365494011799",
  chars! "0.4376102213319562",
  chars! "0.8148700574406752",
  chars! "1.1406010261067034",
  chars! "1.0457175840373103",
  chars! "1.1435923292179504",
  chars! "1.9942850336826181",
  chars! "2.3174507666181747",
  chars! "1.87444375660291",
  chars! "1.2150338637630196",
  chars! "1.419668526719346",
  chars! "1.2780386087944573",
  chars! "1.00167585086497",
  chars! "0.008777775035020864",
  chars! "0.01129508208133534",
  chars! "0.04492865010681441",
  chars! "0.02882277221282829",
  chars! "0.11399325574345859",
  chars! "0.16171748482541887",
  chars! "0.25801075105695764",
  chars! "0.2971267740382526",
  chars! "0.23256512739641494",
  chars! "0.8545546895140659",
  chars! "1.2693977846992104",
  chars! "1.5251062038002734",
  chars! "0.5072998498019203",
  chars! "2.385622204723584",
  chars! "3.1533478226385965",
  chars! "2.5745351510576375",
  chars! "1.1547359891000626",
  chars! "1.4256478529979089",
  chars! "1.524367388603778",
  chars! "0.900910732227554",
  chars! "0.03092110713318649"], [
  chars! "6532742.430703321",
  chars! "6532741.010266083",
  chars! "6532740.558002732",
  chars! "6532739.974496435",
  chars! "135658.8187793885",
  chars! "135658.8182648966",
  chars! "135658.81804465296",
  chars! "135658.8176838319",
  chars! "135658.37951606864",
  chars! "47875.09488764743",
  chars! "47866.981361204074",
  chars! "10565.203888219958",
  chars! "5401.375434897587",
  chars! "3502.2190242863257",
  chars! "2085.0094302672474",
  chars! "1270.7878414451147",
  chars! "763.753843201309",
  chars! "466.41830979881814",
  chars! "124.09323391350904",
  chars! "74.14138766915393",
  chars! "55.08074084107272",
  chars! "46.944929479034414",
  chars! "8.26050662920823",
  chars! "5.523839505032375",
  chars! "4.4612984633604915",
  chars! "3.6585054141359414",
  chars! "1.201628467275759",
  chars! "0.5550516360625294",
  chars! "0.4002577499182388",
  chars! "0.1867992508973499",
  chars! "57312.84624679806",
  chars! "16181.800883411383",
  chars! "16181.72831657273",
  chars! "7375.057181308698",
  chars! "5086.799609085462",
  chars! "2730.384581811027",
  chars! "1600.2735653569896",
  chars! "826.984119779677",
  chars! "340.95347839924796",
  chars! "154.63233595744921",
  chars! "96.5436445599495",
  chars! "62.53518029042783",
  chars! "15.674172538572405",
  chars! "11.960109482142407",
  chars! "9.36521375373783",
  chars! "6.09096017051799",
  chars! "4.2420082176379585",
  chars! "1.0171784652210243",
  chars! "0.6124520024220395",
  chars! "0.356138826952246",
  chars! "0.12301201011514461"]⟩

/-- `br` in `data/kl_slsqp_results.json`. -/
noncomputable def slsqp_br : JEntry := ⟨chars! "br", chars! "30", chars! "21", [
  chars! "1.0000000010140614e-12",
  chars! "2.8538336439793354e-07",
  chars! "2.5344848867778363e-08",
  chars! "5.186030063945494e-07",
  chars! "1e-12",
  chars! "0.0004571121732300656",
  chars! "1.9967338040413716e-05",
  chars! "1.000000000239362e-12",
  chars! "1.0000012561613973e-12",
  chars! "1e-12",
  chars! "0.001012409716831994",
  chars! "0.05345057091006706",
  chars! "1e-12",
  chars! "0.1484730616629878",
  chars! "0.015369067047579302",
  chars! "0.2626760555708776",
  chars! "0.5616107133562006",
  chars! "0.4225732253039176",
  chars! "1.073949679080035",
  chars! "0.30190304888095953",
  chars! "0.5424247986232633",
  chars! "3.1557758445712247",
  chars! "0.21169793910517568",
  chars! "1.6126257878701022",
  chars! "2.1072505514063633",
  chars! "1.7868024291300129",
  chars! "1.5335099979979345",
  chars! "1.8372624633548387",
  chars! "1.527567011250664",
  chars! "0.4422979891256406",
  chars! "0.0012024174371616683",
  chars! "1e-12",
  chars! "1.0000473972365544e-12",
  chars! "0.031628875113829856",
  chars! "0.03224572360521469",
  chars! "0.13082415959268878",
  chars! "0.06834271692675746",
  chars! "1.0000020378433603e-12",
  chars! "0.010871242153009835",
  chars! "0.3888907462116165",
  chars! "1.4129179965812269",
  chars! "0.7483746226847611",
  chars! "0.4496110490433542",
  chars! "3.134225280809406",
  chars! "3.0242686777703196",
  chars! "2.935195816849411",
  chars! "1.5792345619165438",
  chars! "1.2694384480975474",
  chars! "1.5437501799425999",
  chars! "0.6343887060692426",
  chars! "0.005885290480308394"], [
  chars! "6532742.430703321",
  chars! "6532741.010266083",
  chars! "6532740.558002732",
  chars! "6532739.974496435",
  chars! "135658.8187908257",
  chars! "135658.8183233983",
  chars! "135658.8180480225",
  chars! "135658.81678346012",
  chars! "135658.3795217663",
  chars! "47875.09502235028",
  chars! "47866.982736330785",
  chars! "10565.202224755658",
  chars! "5401.3764860327165",
  chars! "3502.219120312316",
  chars! "2085.0062784065426",
  chars! "1270.7866631924132",
  chars! "763.7510237621794",
  chars! "466.43384538990625",
  chars! "124.08699939324241",
  chars! "74.2317903950521",
  chars! "54.8933250801568",
  chars! "46.37183852829877",
  chars! "8.116282532560911",
  chars! "5.291403641910579",
  chars! "3.9131044195838176",
  chars! "3.6285843039155763",
  chars! "0.9468869950662216",
  chars! "0.6163310436730476",
  chars! "0.33264054261974496",
  chars! "0.15059552208898422",
  chars! "57312.845116532946",
  chars! "16181.800878834425",
  chars! "16181.728320276312",
  chars! "7375.060173162763",
  chars! "5086.799198804526",
  chars! "2730.375208186032",
  chars! "1600.2691293313637",
  chars! "826.9596327078903",
  chars! "340.94113176332667",
  chars! "154.56328316821455",
  chars! "97.06596302646231",
  chars! "61.238226680992305",
  chars! "14.91574326001953",
  chars! "13.258084768917353",
  chars! "8.93414371926752",
  chars! "7.154332615518794",
  chars! "4.5494680346019365",
  chars! "0.8861196575788239",
  chars! "0.5187877898373263",
  chars! "0.28863800447616117",
  chars! "0.09915254899683595"]⟩

theorem fits_br_ok : fitsOk neutral_br fpi_br slsqp_br = true := by decide +kernel

/-- `kr` in `data/kl_fpi_results.json`. -/
noncomputable def fpi_kr : JEntry := ⟨chars! "kr", chars! "30", chars! "20", [
  chars! "1.0833501053747929e-08",
  chars! "5.036939049726094e-08",
  chars! "4.837072125750083e-07",
  chars! "2.2162149911167244e-06",
  chars! "6.311387970079619e-06",
  chars! "5.650249964406803e-06",
  chars! "5.3707027382051615e-05",
  chars! "0.0003827145258304688",
  chars! "0.0015154535815731546",
  chars! "0.004053902176201632",
  chars! "0.007152404552159899",
  chars! "0.010659728955975745",
  chars! "0.022543022228574995",
  chars! "0.055682715164206587",
  chars! "0.10776394729456927",
  chars! "0.17859752316410973",
  chars! "0.24079100962744385",
  chars! "0.27533251901649136",
  chars! "0.4605536769730993",
  chars! "0.8346018025276091",
  chars! "1.127417195658362",
  chars! "0.969285771769764",
  chars! "1.291096047405135",
  chars! "2.1289107322463403",
  chars! "2.3313182739983622",
  chars! "1.7259995247061148",
  chars! "1.2948920975331246",
  chars! "1.5730352404420909",
  chars! "1.3414812105094478",
  chars! "1.0212320187923423",
  chars! "0.00973750582085299",
  chars! "0.0402889411286321",
  chars! "0.03954667109769557",
  chars! "0.11027569589233922",
  chars! "0.17230478802758542",
  chars! "0.26210678796547",
  chars! "0.2985697727305463",
  chars! "0.25942180387666314",
  chars! "0.8706234055135621",
  chars! "1.283700608319429",
  chars! "1.4424405606981108",
  chars! "0.8864662791142074",
  chars! "2.639001871294769",
  chars! "3.131726918238295",
  chars! "2.494232603615297",
  chars! "0.6559700256367219",
  chars! "1.7397044814137352",
  chars! "1.7490444870377095",
  chars! "0.880849872713293",
  chars! "0.029619957192181787"], [
  chars! "37337434.92318999",
  chars! "898443.3094425368",
  chars! "898443.3094420953",
  chars! "898443.3094419729",
  chars! "898443.3094418895",
  chars! "898443.3094416595",
  chars! "37591.81049864865",
  chars! "37591.8104969795",
  chars! "37591.81049617157",
  chars! "37591.81049523477",
  chars! "37591.81048072003",
  chars! "12137.65900862532",
  chars! "6718.941086953394",
  chars! "3727.2500641177116",
  chars! "2145.8035220550864",
  chars! "1304.842432439265",
  chars! "772.3010126020977",
  chars! "443.4824088904301",
  chars! "127.4950741285115",
  chars! "76.60177148002279",
  chars! "58.348842493557505",
  chars! "48.607471394503584",
  chars! "8.644745481495223",
  chars! "5.722633476007826",
  chars! "4.915842400309792",
  chars! "4.320084893024346",
  chars! "0.9640412667616401",
  chars! "0.5608880652658157",
  chars! "0.4394890639999828",
  chars! "0.21187248208264875",
  chars! "16772.028125441906",
  chars! "16771.09089975327",
  chars! "6814.412137021505",
  chars! "5183.399582244275",
  chars! "2713.808528411421",
  chars! "1619.1527236027885",
  chars! "820.9161657066359",
  chars! "300.08640651425105",
  chars! "158.0499512698991",
  chars! "100.55143272692446",
  chars! "67.03174303136873",
  chars! "14.538076476776265",
  chars! "12.95533283113956",
  chars! "9.296700110582968",
  chars! "6.230196776403821",
  chars! "3.9850764960790883",
  chars! "1.1825244138768651",
  chars! "0.6761672598069035",
  chars! "0.3910768080078451",
  chars! "0.13978188639399142"]⟩

/-- `kr` in `data/kl_slsqp_results.json`. -/
noncomputable def slsqp_kr : JEntry := ⟨chars! "kr", chars! "30", chars! "20", [
  chars! "1e-12",
  chars! "1e-12",
  chars! "1.000002692523245e-12",
  chars! "2.9811412713893537e-05",
  chars! "1e-12",
  chars! "1.000003512138152e-12",
  chars! "1.0000120425642712e-12",
  chars! "1.0000068730101487e-12",
  chars! "1.000276217194641e-12",
  chars! "0.005984312654690314",
  chars! "1e-12",
  chars! "0.024979660217863405",
  chars! "0.014866126420424503",
  chars! "0.05203174655900374",
  chars! "0.41371030318235713",
  chars! "1e-12",
  chars! "0.6787059719168275",
  chars! "0.32943389457439654",
  chars! "1.107337871972355",
  chars! "0.2718052036990519",
  chars! "0.8087966509168674",
  chars! "3.011696792525477",
  chars! "0.17098375126261617",
  chars! "1.364990924394771",
  chars! "1.8655855341335537",
  chars! "1.5137556148542672",
  chars! "1.3756460853758243",
  chars! "2.921566364204539",
  chars! "2.6754421806916198",
  chars! "0.12455606342397996",
  chars! "0.011074193300381228",
  chars! "1.0000076709248628e-12",
  chars! "0.03924604096284107",
  chars! "1.0000131270610755e-12",
  chars! "0.019427368807108648",
  chars! "0.15567085677737205",
  chars! "1.0000048815046234e-12",
  chars! "0.0146134762531239",
  chars! "0.4639011558305543",
  chars! "1.330974340082552",
  chars! "0.659438923733791",
  chars! "1.6167427030235026",
  chars! "2.1979711110329565",
  chars! "4.580943914195501",
  chars! "1.5160816148283054",
  chars! "2.013823206278879",
  chars! "1.220030608560852",
  chars! "1.1464500285285288",
  chars! "0.2808290185011382",
  chars! "0.00089111032159486"], [
  chars! "37337434.92318999",
  chars! "898443.3094346041",
  chars! "898443.3094396013",
  chars! "898443.3094339373",
  chars! "898443.3094368468",
  chars! "898443.3094339503",
  chars! "37591.818336296885",
  chars! "37591.8093275591",
  chars! "37591.80971547418",
  chars! "37591.81083054659",
  chars! "37591.81096845866",
  chars! "12137.66485883394",
  chars! "6718.932127745737",
  chars! "3727.3012711322494",
  chars! "2145.806564034245",
  chars! "1304.8513778988006",
  chars! "772.3254485649119",
  chars! "443.3661026179088",
  chars! "127.48020492877814",
  chars! "76.7995384298908",
  chars! "58.309793665670746",
  chars! "48.42579566649396",
  chars! "7.973520046673127",
  chars! "5.787912858764695",
  chars! "4.406010527216166",
  chars! "4.075821067425611",
  chars! "0.9164272170582897",
  chars! "0.3243535398428249",
  chars! "0.4955056624794108",
  chars! "0.13730227258055216",
  chars! "16772.038731854474",
  chars! "16771.091141616325",
  chars! "6814.419413626651",
  chars! "5183.399370533972",
  chars! "2713.792002399308",
  chars! "1619.1513071532693",
  chars! "820.9167870212199",
  chars! "300.186041677578",
  chars! "157.85142525264482",
  chars! "100.62949539391887",
  chars! "66.16577065762705",
  chars! "15.535890668756087",
  chars! "14.041938594170345",
  chars! "9.311256745742401",
  chars! "7.525881453126885",
  chars! "5.300375338629586",
  chars! "1.217071302868592",
  chars! "0.7635895780990252",
  chars! "0.2412578845538686",
  chars! "0.09288990014855922"]⟩

theorem fits_kr_ok : fitsOk neutral_kr fpi_kr slsqp_kr = true := by decide +kernel

/-- `rb` in `data/kl_fpi_results.json`. -/
noncomputable def fpi_rb : JEntry := ⟨chars! "rb", chars! "30", chars! "20", [
  chars! "5.353794629627911e-07",
  chars! "2.4431312895998974e-06",
  chars! "6.3088433767111674e-06",
  chars! "3.664387462749624e-06",
  chars! "6.024541837938123e-05",
  chars! "0.0004178107573165295",
  chars! "0.0016337416031423394",
  chars! "0.0043202020768652915",
  chars! "0.007355123990627172",
  chars! "0.010731604046308827",
  chars! "0.024172424382814212",
  chars! "0.05837787981650384",
  chars! "0.11288004895055045",
  chars! "0.1839358274236555",
  chars! "0.24357055077116377",
  chars! "0.2836541863370153",
  chars! "0.4924759742871024",
  chars! "0.86547677887268",
  chars! "1.1192409208769472",
  chars! "0.8654864826150827",
  chars! "1.4544139791593207",
  chars! "2.2527103666677446",
  chars! "2.3512952213266285",
  chars! "1.6551524885661897",
  chars! "1.345530018512024",
  chars! "1.442179794891468",
  chars! "1.1592145235182434",
  chars! "0.6982630362905697",
  chars! "0.8291156086003688",
  chars! "0.1317324390495832",
  chars! "0.011786345608841514",
  chars! "0.04147195253562489",
  chars! "0.045533141461162684",
  chars! "0.11309784044296349",
  chars! "0.18155604755592533",
  chars! "0.26628148602555",
  chars! "0.2964500379699436",
  chars! "0.30329775197311876",
  chars! "0.8969607464837529",
  chars! "1.312940392906175",
  chars! "1.3534318594115589",
  chars! "1.1573818824716948",
  chars! "2.8484698929504026",
  chars! "3.1782426453523205",
  chars! "2.3312319608585197",
  chars! "0.9938159915207364",
  chars! "1.7070396329889332",
  chars! "1.3854925542027714",
  chars! "0.7750171648145064",
  chars! "0.20709044191561"], [
  chars! "1029049.262259581",
  chars! "1029049.2622595421",
  chars! "1029049.262259522",
  chars! "1029049.2622594578",
  chars! "39552.232509901514",
  chars! "39552.23250974058",
  chars! "39552.23250965613",
  chars! "39552.232509551686",
  chars! "39552.23250662495",
  chars! "12340.122901971656",
  chars! "6347.117701341206",
  chars! "3742.120010061089",
  chars! "2157.843395859526",
  chars! "1327.8253841577002",
  chars! "785.5483217884579",
  chars! "415.03796183787034",
  chars! "131.06022969122768",
  chars! "80.42499548326663",
  chars! "62.67883396477991",
  chars! "48.102371301131804",
  chars! "8.829014322964506",
  chars! "6.110895417868058",
  chars! "5.163555391354977",
  chars! "4.231672213654677",
  chars! "0.977872455239712",
  chars! "0.6106222693524475",
  chars! "0.4592578616147681",
  chars! "0.28165543812448973",
  chars! "0.04878173668983368",
  chars! "0.02741397889165922",
  chars! "17637.384330055298",
  chars! "17636.769286906903",
  chars! "6977.618098281555",
  chars! "5312.108350578388",
  chars! "2743.2717425917895",
  chars! "1642.8909545814138",
  chars! "828.0356194748855",
  chars! "273.72369672495745",
  chars! "161.52777786488417",
  chars! "102.32268516772022",
  chars! "72.00154941513932",
  chars! "15.5505392242989",
  chars! "13.657599631724912",
  chars! "9.712001965253945",
  chars! "6.56553426498053",
  chars! "1.6273832514731428",
  chars! "1.1792004563770728",
  chars! "0.8127634902581152",
  chars! "0.5458634363589049",
  chars! "0.10732144287927559"]⟩

/-- `rb` in `data/kl_slsqp_results.json`. -/
noncomputable def slsqp_rb : JEntry := ⟨chars! "rb", chars! "30", chars! "20", [
  chars! "1.0220791447154606e-06",
  chars! "3.002146212698265e-08",
  chars! "2.6232674040857152e-05",
  chars! "1.2437928792287698e-07",
  chars! "0.005684500223181031",
  chars! "4.0092370941341366e-05",
  chars! "0.00016842193912304957",
  chars! "2.9178167146058862e-05",
  chars! "6.395736530511522e-05",
  chars! "0.025342461435551997",
  chars! "0.021357069856399388",
  chars! "0.06928410945125557",
  chars! "0.3908905628895761",
  chars! "0.08213762679868673",
  chars! "0.6912025097439105",
  chars! "0.38815525672707407",
  chars! "0.6211951042103967",
  chars! "0.7928137510932972",
  chars! "1.2141473797994957",
  chars! "1.9153214205049383",
  chars! "0.17132471066104035",
  chars! "1.6394078688639069",
  chars! "2.764866381448338",
  chars! "1.9358711060616176",
  chars! "0.9789038717731284",
  chars! "1.3298768697974277",
  chars! "0.6354287848893346",
  chars! "1.0198198972121526",
  chars! "0.0757756003851054",
  chars! "0.001405195009391409",
  chars! "0.01026376109516307",
  chars! "1.2621132642555241e-05",
  chars! "0.034182689671859785",
  chars! "1.0000261027167e-12",
  chars! "0.016899825266560295",
  chars! "0.12096656038849685",
  chars! "1.1543181578282963e-08",
  chars! "0.13458605268008605",
  chars! "0.7978006181044979",
  chars! "1.1312915019349707",
  chars! "0.9152807393921604",
  chars! "2.1986907171464294",
  chars! "2.298277027261432",
  chars! "4.63807247567211",
  chars! "1.6738078590272556",
  chars! "1.7007008633728045",
  chars! "1.6215218111923977",
  chars! "2.399065492591618",
  chars! "0.37517597831028676",
  chars! "0.16287397122078515"], [
  chars! "1029049.2622573273",
  chars! "1029049.2622563193",
  chars! "1029049.2622618942",
  chars! "1029049.2625688064",
  chars! "39552.23054035637",
  chars! "39552.233856601495",
  chars! "39552.22937786851",
  chars! "39552.23277742923",
  chars! "39552.23480687185",
  chars! "12340.125413593227",
  chars! "6347.108691404279",
  chars! "3742.111043766993",
  chars! "2157.860468571851",
  chars! "1327.8382134101741",
  chars! "785.5795053563156",
  chars! "414.9931252243591",
  chars! "131.04779174780398",
  chars! "80.47367417064287",
  chars! "62.62637651765268",
  chars! "48.14973279288063",
  chars! "8.519222953265283",
  chars! "5.785075563349038",
  chars! "4.491317772956384",
  chars! "4.026409426774865",
  chars! "0.3774533606511867",
  chars! "0.49134388862670353",
  chars! "0.44976308815171173",
  chars! "0.06148651390739437",
  chars! "0.02612209149842893",
  chars! "0.0166816118787107",
  chars! "17637.386141175746",
  chars! "17636.78309616774",
  chars! "6977.622052804811",
  chars! "5312.1083214288155",
  chars! "2743.2955021896146",
  chars! "1642.8763984367106",
  chars! "828.038045757701",
  chars! "273.78256078803116",
  chars! "161.29829690151618",
  chars! "102.57717170782023",
  chars! "71.5859189018466",
  chars! "16.13451171374184",
  chars! "14.151289663251742",
  chars! "9.483968769450982",
  chars! "6.974557101359902",
  chars! "1.6563861695373168",
  chars! "1.2341639516173946",
  chars! "0.8453472895429943",
  chars! "0.4462533359910117",
  chars! "0.04564195784479672"]⟩

theorem fits_rb_ok : fitsOk neutral_rb fpi_rb slsqp_rb = true := by decide +kernel

/-- `sr` in `data/kl_fpi_results.json`. -/
noncomputable def fpi_sr : JEntry := ⟨chars! "sr", chars! "30", chars! "21", [
  chars! "1.4834029651378933e-07",
  chars! "7.029148576571578e-08",
  chars! "1.0020806444411566e-05",
  chars! "8.482479536266062e-05",
  chars! "0.000400897425939688",
  chars! "0.0012383094341506255",
  chars! "0.0007463996431828563",
  chars! "0.001967735288939383",
  chars! "0.002376981169686311",
  chars! "0.00788478710752065",
  chars! "0.023414921660517656",
  chars! "0.05875864124101454",
  chars! "0.11598039444324224",
  chars! "0.1877978055416168",
  chars! "0.24541049638033446",
  chars! "0.29249196234839486",
  chars! "0.5333334060900278",
  chars! "0.9094097149672773",
  chars! "1.1246080907004206",
  chars! "0.6813637331785917",
  chars! "1.550187200611097",
  chars! "2.278942437836179",
  chars! "2.2297106969179854",
  chars! "1.3495233564334255",
  chars! "1.4820630271259152",
  chars! "1.4658967452091554",
  chars! "1.043501261408999",
  chars! "0.7584052391747171",
  chars! "1.1183208135933784",
  chars! "0.1662137855986821",
  chars! "0.010100803839430125",
  chars! "0.015692426446329823",
  chars! "0.04785283376067361",
  chars! "0.05121072221559147",
  chars! "0.11927721187790218",
  chars! "0.19032456750678559",
  chars! "0.27100017615162375",
  chars! "0.2942875210719166",
  chars! "0.3574545737536874",
  chars! "0.9469153601673839",
  chars! "1.3597755780076068",
  chars! "1.28336873815277",
  chars! "1.4277724818291857",
  chars! "3.0699681611479974",
  chars! "3.157432725174667",
  chars! "2.0775857152226807",
  chars! "1.4726946732841735",
  chars! "1.8145122569892096",
  chars! "1.308999124556745",
  chars! "0.4999411534118592",
  chars! "0.5937892906678013"], [
  chars! "9368713.946801245",
  chars! "9368713.792118073",
  chars! "153746.40388202117",
  chars! "153746.40386745604",
  chars! "153746.40385872163",
  chars! "153746.4038377091",
  chars! "57633.56909945748",
  chars! "57629.07882889562",
  chars! "10543.321191396435",
  chars! "9726.98103355825",
  chars! "5450.662006446257",
  chars! "3576.4487492093804",
  chars! "2129.9859344571723",
  chars! "1339.8197391251144",
  chars! "795.8038289909098",
  chars! "384.869379081009",
  chars! "134.1023635580222",
  chars! "84.24556900136298",
  chars! "68.36678130189671",
  chars! "44.38902496355165",
  chars! "8.633740046535854",
  chars! "6.541283706116847",
  chars! "5.8355553340992286",
  chars! "4.575294846822416",
  chars! "0.9849015566553546",
  chars! "0.6841295101591438",
  chars! "0.5830964170368474",
  chars! "0.1573311629783284",
  chars! "0.06283290612427131",
  chars! "0.03722071472279717",
  chars! "68056.02313030051",
  chars! "18584.798543388304",
  chars! "18584.590523914176",
  chars! "7154.309156328057",
  chars! "5472.62409364787",
  chars! "2781.406798851979",
  chars! "1667.4219644788545",
  chars! "832.994200540516",
  chars! "254.322674596438",
  chars! "165.7369373948833",
  chars! "101.28630074982838",
  chars! "77.60903031102968",
  chars! "16.291526774593972",
  chars! "14.715344676120843",
  chars! "10.04513402230049",
  chars! "7.267174329082831",
  chars! "1.7032677263448115",
  chars! "1.3647245634964238",
  chars! "0.8652525086201566",
  chars! "0.6724359678200401",
  chars! "0.12432919057383837"]⟩

/-- `sr` in `data/kl_slsqp_results.json`. -/
noncomputable def slsqp_sr : JEntry := ⟨chars! "sr", chars! "30", chars! "21", [
  chars! "4.0531443461429446e-07",
  chars! "2.0103296957079217e-07",
  chars! "0.0006357133820940667",
  chars! "1.0001253380305544e-12",
  chars! "9.99999999392329e-13",
  chars! "2.219345980257848e-05",
  chars! "1e-12",
  chars! "0.0005791973484626405",
  chars! "0.07756622420016447",
  chars! "1.000010357775305e-12",
  chars! "1e-12",
  chars! "0.22481627745019406",
  chars! "1e-12",
  chars! "1.0000013000496871e-12",
  chars! "0.6939316703741868",
  chars! "0.2265824400422932",
  chars! "0.3784288179020845",
  chars! "1.9037627739562504",
  chars! "2.2439278796986937",
  chars! "1.5111771695254597",
  chars! "1.0000074516565482e-12",
  chars! "1.2235615842399747",
  chars! "1.7416807333257012",
  chars! "1.2139227959399985",
  chars! "0.0014706904781177851",
  chars! "1.0000035342631704e-12",
  chars! "1e-12",
  chars! "2.0663196651675237",
  chars! "0.18365671375526157",
  chars! "0.0041316748421341976",
  chars! "0.0019132011408471545",
  chars! "1.0000031882286878e-12",
  chars! "1e-12",
  chars! "0.04161914673593238",
  chars! "0.049821962496246326",
  chars! "0.24022144134223983",
  chars! "0.19408885990366265",
  chars! "0.02392657241715284",
  chars! "1e-12",
  chars! "0.6321827312923628",
  chars! "0.3615536435854734",
  chars! "0.7529498371057101",
  chars! "2.1165988569785417",
  chars! "2.2897854690642725",
  chars! "5.958563337453823",
  chars! "2.614634228792366",
  chars! "2.2871305851620933",
  chars! "2.278965239522825",
  chars! "1.911640962383773",
  chars! "2.1833069691122597",
  chars! "0.3649289995350245"], [
  chars! "9368713.946800862",
  chars! "9368713.792118073",
  chars! "153746.40385256344",
  chars! "153746.40384531475",
  chars! "153746.40377521896",
  chars! "153746.40382902508",
  chars! "57633.56912300829",
  chars! "57629.081621130135",
  chars! "10543.32871316538",
  chars! "9726.980856628665",
  chars! "5450.661957798203",
  chars! "3576.4242903910776",
  chars! "2129.9792359188996",
  chars! "1339.8325062779631",
  chars! "795.8487274132657",
  chars! "384.8214921099128",
  chars! "133.942118002592",
  chars! "84.18848186626003",
  chars! "68.12807960167976",
  chars! "45.055835011893194",
  chars! "7.950552107192966",
  chars! "5.318153069701814",
  chars! "4.665103594564632",
  chars! "5.2021758870344925",
  chars! "1.6763539400211434",
  chars! "0.5616671671137461",
  chars! "0.05695540523181155",
  chars! "0.09636216396028806",
  chars! "0.03892579151420488",
  chars! "0.02415409854723103",
  chars! "68056.02252185794",
  chars! "18584.798543007233",
  chars! "18584.59052506616",
  chars! "7154.314602655608",
  chars! "5472.632719643514",
  chars! "2781.4173615783316",
  chars! "1667.4368005854521",
  chars! "832.9949498781099",
  chars! "254.35687561499094",
  chars! "164.9382947765951",
  chars! "101.76314544406115",
  chars! "76.55214199225392",
  chars! "18.031186878857774",
  chars! "16.04845765660943",
  chars! "10.701119064281162",
  chars! "7.151598269654307",
  chars! "1.9537533383154497",
  chars! "1.2571089321971074",
  chars! "1.1563401473891304",
  chars! "0.7198968503479168",
  chars! "0.07020976247122736"]⟩

theorem fits_sr_ok : fitsOk neutral_sr fpi_sr slsqp_sr = true := by decide +kernel

/-- `y` in `data/kl_fpi_results.json`. -/
noncomputable def fpi_y : JEntry := ⟨chars! "y", chars! "30", chars! "22", [
  chars! "2.443905930985307e-07",
  chars! "7.528813648231502e-07",
  chars! "1.3019324979084825e-05",
  chars! "8.060870703337881e-05",
  chars! "0.00031193416464607156",
  chars! "0.0008409316848849486",
  chars! "0.0008740037274991368",
  chars! "0.0017019653608859495",
  chars! "0.0026563567221176273",
  chars! "0.00854537559508514",
  chars! "0.02571303772892891",
  chars! "0.06255858702159665",
  chars! "0.12190950313568653",
  chars! "0.19393015883471934",
  chars! "0.24956618217127766",
  chars! "0.3063302283339565",
  chars! "0.587893119144324",
  chars! "0.9814779404901559",
  chars! "1.176822214898485",
  chars! "0.6406602052239303",
  chars! "1.6729631590755218",
  chars! "2.319281893614842",
  chars! "2.127781593871583",
  chars! "0.7906651334553657",
  chars! "1.5140323299573677",
  chars! "1.498572465117234",
  chars! "1.0665163208228232",
  chars! "0.7687417963348522",
  chars! "1.0543980596098403",
  chars! "0.14716087489237392",
  chars! "0.002676122147213357",
  chars! "0.008220474739633839",
  chars! "0.016414874880478512",
  chars! "0.04757742650628547",
  chars! "0.056730316928785544",
  chars! "0.12265463662342173",
  chars! "0.19889817664672937",
  chars! "0.2757354662534645",
  chars! "0.2947761181098831",
  chars! "0.42102906924842964",
  chars! "1.033080299933037",
  chars! "1.4555912223006275",
  chars! "1.2841778162451558",
  chars! "1.6947083861330767",
  chars! "3.2800016257398075",
  chars! "3.190424472540387",
  chars! "1.8229531770989702",
  chars! "1.8903309898434317",
  chars! "2.1195603939257803",
  chars! "1.349824698347388",
  chars! "0.44424681843930625",
  chars! "0.6683874210747522"], [
  chars! "9307953.620603269",
  chars! "153742.63006025134",
  chars! "153742.62995135604",
  chars! "153742.629917825",
  chars! "153742.62988787485",
  chars! "153742.6298204724",
  chars! "153741.75644320343",
  chars! "61138.67351501486",
  chars! "10912.229498637316",
  chars! "9875.509738235329",
  chars! "5593.112556539177",
  chars! "3631.3590353826903",
  chars! "2162.6616898050397",
  chars! "1361.645716579452",
  chars! "806.0873561956695",
  chars! "353.973454416728",
  chars! "135.35460306118597",
  chars! "86.23885075077766",
  chars! "71.08963432015376",
  chars! "16.374817309178667",
  chars! "8.495473673031293",
  chars! "7.079868993479621",
  chars! "6.614597726420948",
  chars! "3.2819496586316563",
  chars! "0.907393153443799",
  chars! "0.6668307152332176",
  chars! "0.5543537544869497",
  chars! "0.17003201166382473",
  chars! "0.0704763140975136",
  chars! "0.04154308921501142",
  chars! "71502.84492876983",
  chars! "71502.84491651908",
  chars! "19430.790786530426",
  chars! "19430.270964897336",
  chars! "7524.637170761718",
  chars! "5526.768390212149",
  chars! "2820.349954120343",
  chars! "1683.8347406850728",
  chars! "835.4285247639367",
  chars! "247.6134853627986",
  chars! "169.5208120663731",
  chars! "100.94323790208394",
  chars! "80.56488101988178",
  chars! "16.677665964317978",
  chars! "15.268185448190664",
  chars! "9.990288780346772",
  chars! "8.05834213328872",
  chars! "1.6985214839516056",
  chars! "1.5662918958731369",
  chars! "0.8731213576853823",
  chars! "0.2780548746586457",
  chars! "0.13834463424243162"]⟩

/-- `y` in `data/kl_slsqp_results.json`. -/
noncomputable def slsqp_y : JEntry := ⟨chars! "y", chars! "30", chars! "22", [
  chars! "6.656436676438484e-07",
  chars! "1e-12",
  chars! "1.000022535703979e-12",
  chars! "1.0001546371153115e-12",
  chars! "1e-12",
  chars! "1e-12",
  chars! "0.0007973198470250448",
  chars! "0.0002539472842641913",
  chars! "0.08301959749215679",
  chars! "1e-12",
  chars! "1.0000097699133465e-12",
  chars! "0.2012461658006286",
  chars! "0.04574649065566622",
  chars! "1.0000108249016541e-12",
  chars! "0.7223314995137887",
  chars! "0.21712952597093763",
  chars! "0.18637413869044564",
  chars! "1.3111827224214732",
  chars! "4.460460444059424",
  chars! "0.1741060169109195",
  chars! "1.7166346308398917",
  chars! "2.389305826439941",
  chars! "2.320146276924199",
  chars! "0.005289746405160019",
  chars! "0.7803065456726963",
  chars! "1.0027926160503482",
  chars! "0.5748051842422146",
  chars! "1.9879628929416964",
  chars! "0.1750025936876649",
  chars! "0.005099850545832533",
  chars! "0.002180252176539758",
  chars! "8.988116423482614e-06",
  chars! "1e-12",
  chars! "1.000003630541382e-12",
  chars! "0.0456619615326419",
  chars! "0.059357961475314906",
  chars! "0.23104697408312386",
  chars! "0.1852780646979606",
  chars! "0.006972742137615943",
  chars! "1.0000045777092825e-12",
  chars! "0.7222370322554572",
  chars! "1.0000077190439486e-12",
  chars! "0.6670294573085819",
  chars! "1.815676385619405",
  chars! "2.793852283385884",
  chars! "4.579189314930022",
  chars! "1.5841929247556987",
  chars! "2.6650863222687766",
  chars! "2.5447820791167173",
  chars! "1.6941285832076216",
  chars! "0.3202692091390312",
  chars! "0.723060455646119"], [
  chars! "9307953.620603269",
  chars! "153742.63005958952",
  chars! "153742.6299394096",
  chars! "153742.62986602593",
  chars! "153742.63323233929",
  chars! "153742.62981794006",
  chars! "153741.75652821717",
  chars! "61138.662534812735",
  chars! "10912.256008687584",
  chars! "9875.509699815575",
  chars! "5593.112541673285",
  chars! "3631.1498775930804",
  chars! "2162.654711955451",
  chars! "1361.5661669098793",
  chars! "806.6452710202477",
  chars! "353.8925730192723",
  chars! "135.24795537550642",
  chars! "86.50158362647971",
  chars! "70.53128835754443",
  chars! "16.255478316853328",
  chars! "7.93786957954739",
  chars! "7.141932967027924",
  chars! "5.9203852793957905",
  chars! "4.272570945452442",
  chars! "0.535200227507326",
  chars! "0.5880629296224824",
  chars! "0.5591478382077049",
  chars! "0.1542702652781792",
  chars! "0.04439668482422557",
  chars! "0.027737968016045327",
  chars! "71502.84896865094",
  chars! "71502.83644644232",
  chars! "19430.790786871003",
  chars! "19430.270966508004",
  chars! "7524.614501035514",
  chars! "5526.752802570076",
  chars! "2820.555818970623",
  chars! "1683.8723117516313",
  chars! "835.4313341921246",
  chars! "247.65220136060748",
  chars! "167.72930022171317",
  chars! "101.71232103116208",
  chars! "75.29044518791216",
  chars! "17.33505661534623",
  chars! "16.416270945252105",
  chars! "10.545540871652427",
  chars! "6.90231537434631",
  chars! "1.9938117419951107",
  chars! "1.3614735743614705",
  chars! "0.9936986276693367",
  chars! "0.07833780519131384",
  chars! "0.1192785249933878"]⟩

theorem fits_y_ok : fitsOk neutral_y fpi_y slsqp_y = true := by decide +kernel

/-- `zr` in `data/kl_fpi_results.json`. -/
noncomputable def fpi_zr : JEntry := ⟨chars! "zr", chars! "30", chars! "22", [
  chars! "1.7867000800700626e-07",
  chars! "1.1370118556470362e-06",
  chars! "1.9255323946544548e-05",
  chars! "0.00011748860971344836",
  chars! "0.00045000449440378614",
  chars! "0.0011954756461424253",
  chars! "0.0006094274596963553",
  chars! "0.001618665297651129",
  chars! "0.0027746515355964252",
  chars! "0.008977730080334053",
  chars! "0.028194407193527136",
  chars! "0.06611734477047602",
  chars! "0.12785079286579226",
  chars! "0.19845591230958143",
  chars! "0.25260056669028574",
  chars! "0.31182352191510215",
  chars! "0.6075182480953929",
  chars! "0.9913469549694328",
  chars! "1.1466522921988231",
  chars! "0.8280576935246748",
  chars! "1.8363943562151022",
  chars! "2.393515125619414",
  chars! "2.076578102580025",
  chars! "1.0878539772942803",
  chars! "1.6011361225641956",
  chars! "1.533933434180831",
  chars! "1.1217224875978553",
  chars! "0.8470428469860702",
  chars! "0.9410010563022281",
  chars! "0.13793163656554697",
  chars! "0.0026998642677090274",
  chars! "0.007295466979315996",
  chars! "0.01675963856790375",
  chars! "0.04461237994823005",
  chars! "0.06566405531298973",
  chars! "0.12363925573382607",
  chars! "0.20908417905678459",
  chars! "0.2753894612973009",
  chars! "0.2956070208032409",
  chars! "0.4620238076307344",
  chars! "1.042698378331342",
  chars! "1.4589305143213813",
  chars! "1.1705876908118098",
  chars! "1.9381547252256934",
  chars! "3.3491056199876525",
  chars! "3.1652575943347747",
  chars! "1.515136377752592",
  chars! "2.002039641482628",
  chars! "2.073844730256402",
  chars! "1.321310362610625",
  chars! "0.6483614355618528",
  chars! "0.6603069051572287"], [
  chars! "11619896.751270242",
  chars! "173896.88101089236",
  chars! "173896.88099471142",
  chars! "173896.88098970306",
  chars! "173896.8809850208",
  chars! "173896.88097336155",
  chars! "66527.15343436149",
  chars! "66503.75119940966",
  chars! "11412.467851291054",
  chars! "9446.686884858496",
  chars! "5769.0016466954485",
  chars! "3667.4641818947",
  chars! "2204.0058213951634",
  chars! "1391.4216731839563",
  chars! "813.8662106948483",
  chars! "328.29491930536153",
  chars! "137.25668066526873",
  chars! "89.58464879403958",
  chars! "74.58268188565232",
  chars! "15.103554254580676",
  chars! "8.949002615426924",
  chars! "7.702007024790242",
  chars! "7.15007917542682",
  chars! "1.537896263204317",
  chars! "0.9534429759051803",
  chars! "0.6960244538395939",
  chars! "0.49718020505063215",
  chars! "0.18304445012056153",
  chars! "0.07531355010659521",
  chars! "0.04457286334059514",
  chars! "78389.57434301284",
  chars! "78389.57433850341",
  chars! "21328.69064523108",
  chars! "21327.494653857444",
  chars! "8247.511412505568",
  chars! "5591.605811388082",
  chars! "2886.1794276956507",
  chars! "1708.7770975498122",
  chars! "855.3806186196498",
  chars! "254.1176935808239",
  chars! "174.24289123774062",
  chars! "104.46123780574445",
  chars! "86.15501479554948",
  chars! "18.15176035955271",
  chars! "15.6867930713215",
  chars! "10.346175745133781",
  chars! "8.710229481074837",
  chars! "1.841674234974026",
  chars! "1.596202046036451",
  chars! "0.8968504748105158",
  chars! "0.2967610634937627",
  chars! "0.14594422874490015"]⟩

/-- `zr` in `data/kl_slsqp_results.json`. -/
noncomputable def slsqp_zr : JEntry := ⟨chars! "zr", chars! "30", chars! "22", [
  chars! "4.913687467176563e-07",
  chars! "1e-12",
  chars! "1.0001546249074927e-12",
  chars! "9.999999960041972e-13",
  chars! "0.0007052882513377928",
  chars! "1.000357803285516e-12",
  chars! "1e-12",
  chars! "0.000308891796976665",
  chars! "0.0966769054612378",
  chars! "1.0000063260911366e-12",
  chars! "1e-12",
  chars! "0.1750671059592454",
  chars! "1e-12",
  chars! "1e-12",
  chars! "0.7188814082811537",
  chars! "0.1924576954304161",
  chars! "0.4137207880554654",
  chars! "1e-12",
  chars! "5.852482967185208",
  chars! "0.017458762417784622",
  chars! "1.7161263612699234",
  chars! "2.465304315396197",
  chars! "2.245565316248229",
  chars! "0.00015898540763814202",
  chars! "1.0439491943704753",
  chars! "1.4064774129428819",
  chars! "2.1060983381573783",
  chars! "0.9424815808193356",
  chars! "0.03392872413828547",
  chars! "0.000546073341742861",
  chars! "0.0021090914306769685",
  chars! "1e-12",
  chars! "1.000000803842367e-12",
  chars! "1.0000012063032965e-12",
  chars! "0.054411869069434904",
  chars! "0.09836258476061388",
  chars! "0.27082174389759295",
  chars! "0.19778386613665455",
  chars! "1e-12",
  chars! "1.0000007601582961e-12",
  chars! "0.7562894156012552",
  chars! "1e-12",
  chars! "0.3388883334621435",
  chars! "2.953808611049238",
  chars! "2.346783194335122",
  chars! "3.850259292552191",
  chars! "1.73067868014875",
  chars! "3.286681421630475",
  chars! "2.222273673382088",
  chars! "1.9545177093538444",
  chars! "0.40556732950434143",
  chars! "0.10238115966169894"], [
  chars! "11619896.751270242",
  chars! "173896.8809183513",
  chars! "173896.88090929325",
  chars! "173896.88090177721",
  chars! "173896.8809507103",
  chars! "173896.88100310645",
  chars! "66527.15355554382",
  chars! "66503.74596063781",
  chars! "11412.540220560435",
  chars! "9446.686931962824",
  chars! "5769.001631154645",
  chars! "3667.3300366385156",
  chars! "2204.011574538996",
  chars! "1391.4162072455204",
  chars! "813.9156130484585",
  chars! "328.30945639712365",
  chars! "137.09467801005567",
  chars! "89.32810191237543",
  chars! "73.99519731905289",
  chars! "15.11080900543814",
  chars! "9.077733964860963",
  chars! "7.5175629469862395",
  chars! "6.679627495358256",
  chars! "1.1785612912904295",
  chars! "0.5653950628751844",
  chars! "0.5732675486420936",
  chars! "0.1231118742373905",
  chars! "0.22866150206884242",
  chars! "0.03776136406875416",
  chars! "0.024475291239567706",
  chars! "78389.56493269918",
  chars! "78389.54295793493",
  chars! "21328.690645426268",
  chars! "21327.494655550625",
  chars! "8247.47369596579",
  chars! "5591.594693474206",
  chars! "2886.154279720189",
  chars! "1708.6956039407687",
  chars! "855.3831859154085",
  chars! "254.17175115851686",
  chars! "172.03781026260125",
  chars! "104.8983771084195",
  chars! "82.56533315485952",
  chars! "19.031025451762662",
  chars! "15.701945114259713",
  chars! "11.17889326635804",
  chars! "8.022848711439385",
  chars! "2.1064655612150784",
  chars! "1.443881399785178",
  chars! "1.0969865124427003",
  chars! "0.0929772811718761",
  chars! "0.06282160834235596"]⟩

theorem fits_zr_ok : fitsOk neutral_zr fpi_zr slsqp_zr = true := by decide +kernel

/-- `nb` in `data/kl_fpi_results.json`. -/
noncomputable def fpi_nb : JEntry := ⟨chars! "nb", chars! "31", chars! "23", [
  chars! "3.4858553463542173e-06",
  chars! "5.236072512080836e-06",
  chars! "1.4315553368553673e-05",
  chars! "4.523748069755637e-05",
  chars! "7.94960359955413e-05",
  chars! "0.0001764035117033192",
  chars! "0.0003758579811177176",
  chars! "0.00039197960062284685",
  chars! "0.0010162944876061393",
  chars! "0.0025563209039715933",
  chars! "0.008947521050348912",
  chars! "0.029225643492902884",
  chars! "0.06829431704873686",
  chars! "0.13236022182365836",
  chars! "0.20195534337474014",
  chars! "0.2545578344403633",
  chars! "0.32244089848407026",
  chars! "0.628359285187284",
  chars! "1.0017242646091025",
  chars! "1.1111964149164948",
  chars! "0.9581788457654513",
  chars! "1.9672437247151533",
  chars! "2.419637304962184",
  chars! "1.9672982231055665",
  chars! "1.201378945593643",
  chars! "1.715968074471772",
  chars! "1.6776663789965083",
  chars! "1.245538684441262",
  chars! "0.8730310651266932",
  chars! "0.7583798016550255",
  chars! "0.08641082796577434",
  chars! "0.0010878306608910384",
  chars! "0.00318889184764231",
  chars! "0.007794489659829765",
  chars! "0.018290620743667215",
  chars! "0.04553762196056381",
  chars! "0.07503544747425624",
  chars! "0.12619033445556457",
  chars! "0.2187866316657383",
  chars! "0.2755523212184559",
  chars! "0.29466880594369205",
  chars! "0.5086312593528859",
  chars! "1.0484293721002114",
  chars! "1.4660280100357526",
  chars! "1.0400004068992181",
  chars! "2.2157249350283053",
  chars! "3.41552613651005",
  chars! "3.137410914410685",
  chars! "1.1206721661064636",
  chars! "2.291259418522591",
  chars! "2.2181865515277592",
  chars! "1.5196577590276859",
  chars! "0.7815147820244145",
  chars! "0.5363670441139997"], [
  chars! "717402.9202203875",
  chars! "717402.8019231362",
  chars! "717402.549956414",
  chars! "717401.5998009838",
  chars! "717167.7014249489",
  chars! "267368.3000044923",
  chars! "266761.66674256924",
  chars! "70895.86100554728",
  chars! "70895.57792598796",
  chars! "10361.449823801036",
  chars! "8070.77371211565",
  chars! "5696.136756302909",
  chars! "3603.933918149853",
  chars! "2221.2005371115324",
  chars! "1412.5902110575414",
  chars! "821.0019436218341",
  chars! "298.75247129419256",
  chars! "139.1900077257859",
  chars! "93.4114964031551",
  chars! "79.34212295208815",
  chars! "14.987034662460474",
  chars! "9.35121299065469",
  chars! "8.453013294104764",
  chars! "7.981793682659406",
  chars! "1.3920455611754556",
  chars! "0.9174163124929879",
  chars! "0.6934907661108092",
  chars! "0.49183578401820316",
  chars! "0.23272781579002824",
  chars! "0.08692454156758804",
  chars! "0.04794312536364618",
  chars! "311718.178303525",
  chars! "86328.72086317274",
  chars! "86328.72086257207",
  chars! "22833.269733882724",
  chars! "22832.846077939757",
  chars! "8718.20039245306",
  chars! "5675.560696045441",
  chars! "2943.048316897397",
  chars! "1728.3248632452676",
  chars! "869.3502022477322",
  chars! "261.8503181543147",
  chars! "176.78016163960564",
  chars! "106.8915282414991",
  chars! "92.43954083775186",
  chars! "19.732023831355058",
  chars! "15.943552025003799",
  chars! "10.710139389400785",
  chars! "9.641983619240932",
  chars! "2.018102826434848",
  chars! "1.6690667339032152",
  chars! "0.9033845144872411",
  chars! "0.3748101799007948",
  chars! "0.18440831696001472"]⟩

/-- `nb` in `data/kl_slsqp_results.json`. -/
noncomputable def slsqp_nb : JEntry := ⟨chars! "nb", chars! "31", chars! "23", [
  chars! "1.000000713810668e-12",
  chars! "1.0000025562360351e-12",
  chars! "1.0000005445027823e-12",
  chars! "1.0000003488859208e-12",
  chars! "8.710544386207619e-05",
  chars! "0.0001430554216996372",
  chars! "1e-12",
  chars! "1e-12",
  chars! "1e-12",
  chars! "0.10374336270424511",
  chars! "1.0000353577083045e-12",
  chars! "0.1349525273775755",
  chars! "1e-12",
  chars! "1.0000001667645162e-12",
  chars! "1e-12",
  chars! "0.7039433976548715",
  chars! "0.20318225916425908",
  chars! "0.7956853412214496",
  chars! "1.0000043380373653e-12",
  chars! "4.7161025625158",
  chars! "0.15017209030806303",
  chars! "1.9202085242775426",
  chars! "2.570619834822721",
  chars! "1.8716133637762775",
  chars! "0.44225869755582786",
  chars! "1.5200188374815389",
  chars! "1.880051945322483",
  chars! "1.4777729780155544",
  chars! "0.9947748669789838",
  chars! "0.07962828825159043",
  chars! "0.002570517772245008",
  chars! "0.00048155128082245295",
  chars! "1e-12",
  chars! "0.002796510105912716",
  chars! "1.0000009588058335e-12",
  chars! "1.0000021754432085e-12",
  chars! "1e-12",
  chars! "0.18148731742584262",
  chars! "0.315234570997645",
  chars! "0.20105768041584965",
  chars! "1e-12",
  chars! "0.02751372700103718",
  chars! "0.8431254243878695",
  chars! "1.0000004619593884e-12",
  chars! "0.8822071131093034",
  chars! "2.806674228781977",
  chars! "3.68254209580246",
  chars! "2.9471962214836367",
  chars! "1.3842720604548402",
  chars! "3.8207669146632677",
  chars! "1.8019080562127987",
  chars! "2.079186953810534",
  chars! "0.33305000108624144",
  chars! "0.12298574008679311"], [
  chars! "717402.9202206781",
  chars! "717402.8019231445",
  chars! "717402.549956705",
  chars! "717401.5998009886",
  chars! "717167.7014198508",
  chars! "267368.29999905743",
  chars! "266761.66674288624",
  chars! "70895.86100541931",
  chars! "70895.57792587882",
  chars! "10361.41337237049",
  chars! "8070.773721708978",
  chars! "5696.078693681564",
  chars! "3603.94756358303",
  chars! "2221.2006733854714",
  chars! "1412.5809907967136",
  chars! "820.8040778093141",
  chars! "298.8327104105346",
  chars! "138.93800227415772",
  chars! "93.80719182135147",
  chars! "79.04016468931245",
  chars! "14.957624953490557",
  chars! "9.450238741368684",
  chars! "8.530239826097382",
  chars! "7.544905132276442",
  chars! "0.2983080992040023",
  chars! "0.25876400151740125",
  chars! "0.5467700168231684",
  chars! "0.6101134459860754",
  chars! "0.10965533113683808",
  chars! "0.04993728159642188",
  chars! "0.031386003765342174",
  chars! "311718.1785803259",
  chars! "86328.73637490226",
  chars! "86328.71120972076",
  chars! "22833.269736924",
  chars! "22832.846090539326",
  chars! "8718.200164285348",
  chars! "5675.75026434246",
  chars! "2943.030007370938",
  chars! "1728.383767480421",
  chars! "869.3522012290847",
  chars! "261.9460032346624",
  chars! "176.09050872712658",
  chars! "107.00934202668896",
  chars! "91.92849318147067",
  chars! "20.2570931174686",
  chars! "15.853261587398897",
  chars! "10.396122661307535",
  chars! "9.43722555207632",
  chars! "2.187037172928759",
  chars! "1.469936045453366",
  chars! "1.1771071726475142",
  chars! "0.19451280410639746",
  chars! "0.08506749269219088"]⟩

theorem fits_nb_ok : fitsOk neutral_nb fpi_nb slsqp_nb = true := by decide +kernel

/-- `mo` in `data/kl_fpi_results.json`. -/
noncomputable def fpi_mo : JEntry := ⟨chars! "mo", chars! "30", chars! "23", [
  chars! "3.75331565489149e-06",
  chars! "5.606500634416469e-06",
  chars! "1.5208002462621386e-05",
  chars! "4.81288560561414e-05",
  chars! "8.555228512654662e-05",
  chars! "0.00018982988273587124",
  chars! "0.0004038578046871558",
  chars! "0.00042704299973682136",
  chars! "0.001100605253793645",
  chars! "0.0027716287156725164",
  chars! "0.009683057980683694",
  chars! "0.031100039514941745",
  chars! "0.07164049070945774",
  chars! "0.13715404046043156",
  chars! "0.2055139766097938",
  chars! "0.2545327565429558",
  chars! "0.3412329015689259",
  chars! "0.656224775961467",
  chars! "1.017668255644796",
  chars! "1.0749792358527686",
  chars! "1.105722921402001",
  chars! "2.1617395232506174",
  chars! "2.5348161345067033",
  chars! "1.934035173055143",
  chars! "1.2739456097976058",
  chars! "1.7919352397676955",
  chars! "1.7562190335432843",
  chars! "1.3696296797211165",
  chars! "1.0620023372994685",
  chars! "0.19676764941351055",
  chars! "0.0011603035622114162",
  chars! "0.0034085398589827234",
  chars! "0.008261725750873361",
  chars! "0.019380321630607374",
  chars! "0.04767003902445113",
  chars! "0.07976895376083204",
  chars! "0.13030556410528452",
  chars! "0.2256130360168661",
  chars! "0.2756462758977005",
  chars! "0.28719422633096603",
  chars! "0.5723286346722272",
  chars! "1.0578406495993833",
  chars! "1.4765720888830762",
  chars! "0.8750608739525084",
  chars! "2.6678338191772095",
  chars! "3.654037506927662",
  chars! "3.2407742660071386",
  chars! "0.4552020177180498",
  chars! "2.5544494053359017",
  chars! "2.406985600036465",
  chars! "1.5772938405107195",
  chars! "0.8636309644158447",
  chars! "0.527987299025745"], [
  chars! "720074.6279692764",
  chars! "720074.4910986979",
  chars! "720074.1932468694",
  chars! "720073.0765574613",
  chars! "719821.310691616",
  chars! "268316.23217815894",
  chars! "267676.25142509665",
  chars! "71340.83763906437",
  chars! "71340.49768572612",
  chars! "10506.706292000035",
  chars! "8082.669522115532",
  chars! "5795.135652857309",
  chars! "3620.9917642506766",
  chars! "2256.5150155268175",
  chars! "1435.9715259524082",
  chars! "836.7057711465224",
  chars! "271.5764206051565",
  chars! "141.63471494886852",
  chars! "98.23848637343121",
  chars! "84.80395911652346",
  chars! "14.672287360765345",
  chars! "9.685079665738748",
  chars! "9.03588382260605",
  chars! "8.643888023298627",
  chars! "1.2399266916552927",
  chars! "0.9067436962816295",
  chars! "0.6639145694741339",
  chars! "0.4567436172472489",
  chars! "0.19495871461598419",
  chars! "0.05787501429599135",
  chars! "312914.3125307288",
  chars! "86860.12208956835",
  chars! "86860.1220887513",
  chars! "23079.66252702365",
  chars! "23079.179238582245",
  chars! "8830.795216618919",
  chars! "5703.374209694366",
  chars! "2976.068176202364",
  chars! "1737.4383645108992",
  chars! "880.5777915389666",
  chars! "271.6507996592321",
  chars! "174.59909488221683",
  chars! "109.50830036748242",
  chars! "98.2619611277187",
  chars! "21.148381979676824",
  chars! "15.626603878355647",
  chars! "11.103428958574897",
  chars! "2.519871597698497",
  chars! "2.1197094436910913",
  chars! "1.752064746224533",
  chars! "0.9037056559745538",
  chars! "0.34088730486976976",
  chars! "0.13753150966704009"]⟩

/-- `mo` in `data/kl_slsqp_results.json`. -/
noncomputable def slsqp_mo : JEntry := ⟨chars! "mo", chars! "30", chars! "23", [
  chars! "1.0000001443718466e-12",
  chars! "1e-12",
  chars! "1.0000003021265664e-12",
  chars! "1e-12",
  chars! "9.343380136477643e-05",
  chars! "0.00016313233934010232",
  chars! "1.000002608403076e-12",
  chars! "1e-12",
  chars! "1.000000116309431e-12",
  chars! "0.1067830014644281",
  chars! "1e-12",
  chars! "0.14785095582861385",
  chars! "1e-12",
  chars! "1.000019171062922e-12",
  chars! "1e-12",
  chars! "0.6743360179451258",
  chars! "0.8204931021845892",
  chars! "0.4508769147781778",
  chars! "0.24543710298870858",
  chars! "1.4798023193854561",
  chars! "0.3823321472585908",
  chars! "2.016053415688891",
  chars! "2.3596642975704163",
  chars! "1.6461344111449476",
  chars! "0.7750153457896958",
  chars! "1.7928931399424097",
  chars! "0.453554295018352",
  chars! "1.3453829049680033",
  chars! "0.13233335634280888",
  chars! "0.0002811438695673497",
  chars! "0.0005179753228021566",
  chars! "0.00035083907292744407",
  chars! "0.0027000881224087236",
  chars! "1e-12",
  chars! "1.0000036451385403e-12",
  chars! "1e-12",
  chars! "0.18918604834166616",
  chars! "0.3290287852120578",
  chars! "0.21014657422574223",
  chars! "0.0074603647927643044",
  chars! "0.26609515399681527",
  chars! "1.8267507778004424",
  chars! "0.20153572503681233",
  chars! "2.1046065895071324",
  chars! "3.536013463658108",
  chars! "2.876590608949988",
  chars! "4.650849337235049",
  chars! "1.1061706655018935",
  chars! "3.429207778391756",
  chars! "4.448870520705143",
  chars! "1.7706128873571467",
  chars! "0.2103114785503304",
  chars! "0.003520985340518336"], [
  chars! "720074.6279692706",
  chars! "720074.4910987545",
  chars! "720074.193246868",
  chars! "720073.0765574613",
  chars! "719821.3107059126",
  chars! "268316.2321793146",
  chars! "267676.2514274332",
  chars! "71340.83763886236",
  chars! "71340.4976858908",
  chars! "10506.7349530016",
  chars! "8082.669521678402",
  chars! "5795.174394219075",
  chars! "3620.991690250173",
  chars! "2256.5149414925527",
  chars! "1435.9711614256316",
  chars! "836.7071904025273",
  chars! "271.6796913468975",
  chars! "141.42424287023618",
  chars! "98.20546956298425",
  chars! "84.44208951423401",
  chars! "14.70308136819399",
  chars! "9.68224758812425",
  chars! "9.502713426622151",
  chars! "9.527165286109907",
  chars! "0.13676910292175337",
  chars! "0.4296851544218492",
  chars! "0.08952400662059422",
  chars! "0.27188792846650767",
  chars! "0.05884021768454928",
  chars! "0.026660933009242327",
  chars! "312914.312823086",
  chars! "86860.12077739695",
  chars! "86860.12656542704",
  chars! "23079.66253338746",
  chars! "23079.179261664904",
  chars! "8830.795123348333",
  chars! "5703.33660369179",
  chars! "2976.07900442017",
  chars! "1737.4182926287062",
  chars! "880.5751315305193",
  chars! "271.73934260843254",
  chars! "174.6715458192025",
  chars! "109.26616969699009",
  chars! "97.57760510312909",
  chars! "20.741177465969482",
  chars! "16.66348060695487",
  chars! "10.745847316323843",
  chars! "2.3788140516152647",
  chars! "2.378783331028548",
  chars! "1.4298962973100018",
  chars! "0.8636954107466742",
  chars! "0.22856694462329685",
  chars! "0.04394999822182675"]⟩

theorem fits_mo_ok : fitsOk neutral_mo fpi_mo slsqp_mo = true := by decide +kernel

/-- Part 3 of the results. -/
noncomputable def fits3 : List (DataFile × JEntry × JEntry) := [
  (neutral_cu, fpi_cu, slsqp_cu),
  (neutral_zn, fpi_zn, slsqp_zn),
  (neutral_ga, fpi_ga, slsqp_ga),
  (neutral_ge, fpi_ge, slsqp_ge),
  (neutral_as, fpi_as, slsqp_as),
  (neutral_se, fpi_se, slsqp_se),
  (neutral_br, fpi_br, slsqp_br),
  (neutral_kr, fpi_kr, slsqp_kr),
  (neutral_rb, fpi_rb, slsqp_rb),
  (neutral_sr, fpi_sr, slsqp_sr),
  (neutral_y, fpi_y, slsqp_y),
  (neutral_zr, fpi_zr, slsqp_zr),
  (neutral_nb, fpi_nb, slsqp_nb),
  (neutral_mo, fpi_mo, slsqp_mo)]

theorem fits3_ok : ∀ p ∈ fits3, fitsOk p.1 p.2.1 p.2.2 = true := by
  intro p hp
  unfold fits3 at hp
  simp only [List.mem_cons, List.not_mem_nil, or_false] at hp
  rcases hp with rfl | rfl | rfl | rfl | rfl | rfl | rfl | rfl | rfl | rfl | rfl | rfl | rfl | rfl
  · exact fits_cu_ok
  · exact fits_zn_ok
  · exact fits_ga_ok
  · exact fits_ge_ok
  · exact fits_as_ok
  · exact fits_se_ok
  · exact fits_br_ok
  · exact fits_kr_ok
  · exact fits_rb_ok
  · exact fits_sr_ok
  · exact fits_y_ok
  · exact fits_zr_ok
  · exact fits_nb_ok
  · exact fits_mo_ok

end BFit.Data
