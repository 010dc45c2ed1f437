import Verif.Data.All
import Verif.Lemmas.FitsScan

/-! Copy of /repo/bfit/data/kl_fpi_results.json and kl_slsqp_results.json, generated by tools/gendata.py. -/

namespace BFit.Data

/-- `tc` in `data/kl_fpi_results.json`. -/
noncomputable def fpi_tc : JEntry := ⟨chars! "tc", chars! "32", chars! "22", [
  chars! "2.9542099162895053e-08",
  chars! "6.60435462352782e-08",
  chars! "7.52573296825574e-08",
  chars! "1.5427722251696198e-06",
  chars! "2.2490191711160205e-05",
  chars! "0.00013384128975306233",
  chars! "0.0005049431224091859",
  chars! "0.0013120746551514584",
  chars! "0.0007206700804346916",
  chars! "0.0016906227240120217",
  chars! "0.00310357850236625",
  chars! "0.01078543144299665",
  chars! "0.03377985021830464",
  chars! "0.07563940828738393",
  chars! "0.1423121945574143",
  chars! "0.20906985483771645",
  chars! "0.2525821247963103",
  chars! "0.36448972100164406",
  chars! "0.6934409582183989",
  chars! "1.0437858863590053",
  chars! "1.0488266388367133",
  chars! "1.2015409306422884",
  chars! "2.2166990391036197",
  chars! "2.4746460332282205",
  chars! "1.7544648227262463",
  chars! "1.3681153420154972",
  chars! "1.804088032062965",
  chars! "1.6756791071844945",
  chars! "1.2215581018939137",
  chars! "0.8870295434716238",
  chars! "0.8196313909501919",
  chars! "0.11562716309616776",
  chars! "0.0033635200765491664",
  chars! "0.0077282540771633846",
  chars! "0.01991733482060577",
  chars! "0.04752639353105657",
  chars! "0.08597829107165406",
  chars! "0.13344059456116816",
  chars! "0.2316985383954156",
  chars! "0.2752287913118257",
  chars! "0.27218292895913276",
  chars! "0.6542286205836926",
  chars! "1.0905334704639156",
  chars! "1.484605565186322",
  chars! "0.6635270096715568",
  chars! "2.8671316004246576",
  chars! "3.7017939676575273",
  chars! "3.0449864223892407",
  chars! "1.2609891597899126",
  chars! "2.7035129403301372",
  chars! "2.251796569902279",
  chars! "1.4267401860018758",
  chars! "0.7554182642540144",
  chars! "0.5963900674281429"], [
  chars! "13880488.376044748",
  chars! "13880488.350856366",
  chars! "13880488.327993799",
  chars! "193192.59139885576",
  chars! "193192.591390959",
  chars! "193192.59138822625",
  chars! "193192.59138550775",
  chars! "193192.59137764646",
  chars! "73988.32063410897",
  chars! "73984.18207145947",
  chars! "11491.941576376508",
  chars! "8302.1663368646",
  chars! "6019.780752074504",
  chars! "3681.5998469384667",
  chars! "2303.076955492188",
  chars! "1462.318659773996",
  chars! "862.3135020494004",
  chars! "253.59484365120736",
  chars! "143.9221018217484",
  chars! "103.87034168653763",
  chars! "90.0086485502287",
  chars! "14.665212514525571",
  chars! "10.416762600092037",
  chars! "9.965345072297767",
  chars! "9.596531279013467",
  chars! "1.2956810276794324",
  chars! "0.9479785964324635",
  chars! "0.7282905591182961",
  chars! "0.4869077407884043",
  chars! "0.2111782971634678",
  chars! "0.08664732374563772",
  chars! "0.05085865349703758",
  chars! "87096.1538713764",
  chars! "87096.15387059649",
  chars! "23750.709050285655",
  chars! "23749.85217573599",
  chars! "9056.43184890882",
  chars! "5672.857268541929",
  chars! "3009.1152554907003",
  chars! "1732.9909363166287",
  chars! "891.335752817305",
  chars! "280.60667043428214",
  chars! "168.6678279506694",
  chars! "113.32431000881319",
  chars! "101.54469732251069",
  chars! "22.684833565297414",
  chars! "16.02885329725736",
  chars! "12.231537498502147",
  chars! "2.4239223900947966",
  chars! "2.3211672582488423",
  chars! "1.7719903359227807",
  chars! "0.9852648058048926",
  chars! "0.36622719154553907",
  chars! "0.17055958923161185"]⟩

/-- `tc` in `data/kl_slsqp_results.json`. -/
noncomputable def slsqp_tc : JEntry := ⟨chars! "tc", chars! "32", chars! "22", [
  chars! "1.0985876412277947e-07",
  chars! "3.266375490084381e-07",
  chars! "1.0000001104102036e-12",
  chars! "1e-12",
  chars! "1e-12",
  chars! "1e-12",
  chars! "0.0009001336356917069",
  chars! "1.0000260202822536e-12",
  chars! "1.000000042585481e-12",
  chars! "1e-12",
  chars! "0.16144791626815397",
  chars! "1e-12",
  chars! "1.0000156108676345e-12",
  chars! "1.0000438499205317e-12",
  chars! "1e-12",
  chars! "1.000061918928555e-12",
  chars! "0.5125781116673341",
  chars! "0.32396028681961936",
  chars! "2.6471856448268403",
  chars! "0.012133627914081157",
  chars! "0.0881329999894611",
  chars! "0.19552251410122365",
  chars! "1.977596996540359",
  chars! "2.1638642012819345",
  chars! "1.2497700464691979",
  chars! "1.3208811301321648",
  chars! "1.0919941744998396",
  chars! "1.4076583524068071",
  chars! "0.0632755525847253",
  chars! "0.013211050024257681",
  chars! "0.12636109553601985",
  chars! "0.0024228433962656744",
  chars! "9.99999999392329e-13",
  chars! "0.00296559021297383",
  chars! "1.0000005542160203e-12",
  chars! "1.000000639679722e-12",
  chars! "0.084252590798682",
  chars! "0.2387086201395924",
  chars! "0.35038037000064287",
  chars! "0.26970885304501446",
  chars! "0.07852717261647862",
  chars! "0.22159300517566746",
  chars! "1.2910106817153444",
  chars! "0.8242345314178413",
  chars! "1.9843862584851113",
  chars! "5.484311715886386",
  chars! "0.4324145106402968",
  chars! "5.911131937284991",
  chars! "2.006016431473948",
  chars! "3.4612643781063506",
  chars! "5.007697102815484",
  chars! "1.7987663145141177",
  chars! "0.08924904605910752",
  chars! "0.10448698158025427"], [
  chars! "13880488.376044748",
  chars! "13880488.350856366",
  chars! "13880488.327993799",
  chars! "193192.5913811886",
  chars! "193192.591529913",
  chars! "193192.59138349158",
  chars! "193192.59140492397",
  chars! "193192.591326405",
  chars! "73988.32063409437",
  chars! "73984.18207144312",
  chars! "11491.95958541945",
  chars! "8302.166281041431",
  chars! "6019.780648698475",
  chars! "3681.599889486748",
  chars! "2303.0773628044362",
  chars! "1462.318971198565",
  chars! "862.296509916605",
  chars! "253.57676363570064",
  chars! "144.19057844843417",
  chars! "103.84876115769657",
  chars! "89.54217770414283",
  chars! "14.650003566985657",
  chars! "11.153622452530298",
  chars! "11.370542711647248",
  chars! "11.158342253179839",
  chars! "0.12088298139612966",
  chars! "0.18902671006217006",
  chars! "0.354180732306103",
  chars! "0.04923506270254973",
  chars! "0.24766424603612539",
  chars! "0.06561136604882664",
  chars! "0.03229631820421142",
  chars! "87096.15564995307",
  chars! "87096.15385063976",
  chars! "23750.709053248494",
  chars! "23749.852187084165",
  chars! "9056.42316007778",
  chars! "5672.859458402809",
  chars! "3009.10251564614",
  chars! "1732.9920129004972",
  chars! "891.3229246839517",
  chars! "280.44272979839036",
  chars! "169.41892829715354",
  chars! "113.00553816023034",
  chars! "98.66439247671256",
  chars! "21.15442496118086",
  chars! "16.736909133189705",
  chars! "11.928354355729187",
  chars! "2.5401635306528036",
  chars! "2.517332953388537",
  chars! "1.4687765023052108",
  chars! "0.8366092778582724",
  chars! "0.08793840034723084",
  chars! "0.10479473261010665"]⟩

theorem fits_tc_ok : fitsOk neutral_tc fpi_tc slsqp_tc = true := by decide +kernel

/-- `ru` in `data/kl_fpi_results.json`. -/
noncomputable def fpi_ru : JEntry := ⟨chars! "ru", chars! "31", chars! "22", [
  chars! "3.694602060397878e-05",
  chars! "1.2202358282091794e-05",
  chars! "2.042306949201482e-05",
  chars! "4.9664265139049283e-05",
  chars! "7.315299203417769e-05",
  chars! "0.0002185542948130902",
  chars! "0.00043305080876746195",
  chars! "0.0004976016054943818",
  chars! "0.0011888100358060432",
  chars! "0.0032410310772576383",
  chars! "0.011938255314670063",
  chars! "0.036509362476421336",
  chars! "0.07968812260425012",
  chars! "0.1474244373377167",
  chars! "0.21360508345985604",
  chars! "0.2515742368573994",
  chars! "0.3999761161035478",
  chars! "0.7674776681441977",
  chars! "1.1440918630055188",
  chars! "1.114703507414556",
  chars! "1.2894873284741868",
  chars! "2.2188839683834876",
  chars! "2.359077295610391",
  chars! "1.4959338279927397",
  chars! "1.4337895584515508",
  chars! "1.8885073749786612",
  chars! "1.7811341433069383",
  chars! "1.3136170315889995",
  chars! "1.0223463303978286",
  chars! "0.7346075137648691",
  chars! "0.11419908801669679",
  chars! "0.0010593322041976465",
  chars! "0.003748691264994197",
  chars! "0.007877818149941923",
  chars! "0.02059188451754934",
  chars! "0.04613703123718596",
  chars! "0.09567036951605534",
  chars! "0.1370954541325065",
  chars! "0.23701832706215348",
  chars! "0.27812716068109766",
  chars! "0.25515023641724205",
  chars! "0.7804747377634256",
  chars! "1.2044247745844887",
  chars! "1.636256833319023",
  chars! "0.4398933219635688",
  chars! "2.939179930964081",
  chars! "3.715592604336883",
  chars! "2.7992415160440616",
  chars! "1.767127643643561",
  chars! "3.1230784685448088",
  chars! "2.339167312448866",
  chars! "1.5499408642527068",
  chars! "0.7988021358263427"], [
  chars! "835580.5614729208",
  chars! "835580.5416304534",
  chars! "835580.2251057015",
  chars! "835569.5750908472",
  chars! "287892.0192574256",
  chars! "285977.9164915272",
  chars! "285215.81997844495",
  chars! "77162.21293111584",
  chars! "77161.22242703631",
  chars! "11892.202491576953",
  chars! "8046.754696195657",
  chars! "6176.1859495791305",
  chars! "3747.4914827607954",
  chars! "2337.829184259965",
  chars! "1479.4577507080944",
  chars! "887.5121803094279",
  chars! "238.02104331675795",
  chars! "141.34172557066108",
  chars! "103.77422966661547",
  chars! "91.43550185061906",
  chars! "13.945496368873194",
  chars! "11.304566842377604",
  chars! "10.992664987498397",
  chars! "10.62871810015076",
  chars! "1.2675868349877915",
  chars! "0.9366593794250045",
  chars! "0.7129234008440632",
  chars! "0.48588562126268364",
  chars! "0.192118810254735",
  chars! "0.10177510843456924",
  chars! "0.053811772598576224",
  chars! "336761.8264353504",
  chars! "94188.2882738032",
  chars! "94188.288268505",
  chars! "25128.744423338434",
  chars! "25127.047176473923",
  chars! "9417.653202381116",
  chars! "5584.916394373845",
  chars! "3031.1366986501184",
  chars! "1713.4241204637704",
  chars! "875.7738631311572",
  chars! "279.81131650096455",
  chars! "158.14096257326162",
  chars! "112.57220062742334",
  chars! "27.388389367423457",
  chars! "23.62848974712999",
  chars! "16.11435582511275",
  chars! "13.357194992642778",
  chars! "2.5079001505431164",
  chars! "2.467329376585384",
  chars! "1.7080257623551245",
  chars! "0.9798792104789739",
  chars! "0.42547432115427053"]⟩

/-- `ru` in `data/kl_slsqp_results.json`. -/
noncomputable def slsqp_ru : JEntry := ⟨chars! "ru", chars! "31", chars! "22", [
  chars! "1.0000889568753823e-12",
  chars! "1.000036920476555e-12",
  chars! "1.0000000074338423e-12",
  chars! "7.211191784053341e-05",
  chars! "0.0002443027258919328",
  chars! "1e-12",
  chars! "1.0000000613950745e-12",
  chars! "1.0000008094249184e-12",
  chars! "1.0000000282825786e-12",
  chars! "0.0922525588909595",
  chars! "1.0000296328609604e-12",
  chars! "0.2046551875819048",
  chars! "1.0001751673936495e-12",
  chars! "1.0000003694011341e-12",
  chars! "1.0038080630205303e-12",
  chars! "0.28654069736878435",
  chars! "1.0003083868957196e-12",
  chars! "0.7124897147092176",
  chars! "1.0000413172011726e-12",
  chars! "5.496457534613154",
  chars! "0.158286868122002",
  chars! "1.8909818202091835",
  chars! "1.9704195809138587",
  chars! "0.8449884870047819",
  chars! "0.4991240803817164",
  chars! "1.435366864686268",
  chars! "0.9914395642686465",
  chars! "0.0940336115809244",
  chars! "0.16890837160508715",
  chars! "0.004402582557262284",
  chars! "1.9924628155538434e-06",
  chars! "0.0004784295089607039",
  chars! "1.0054964226345117e-12",
  chars! "0.0031902386068824395",
  chars! "1e-12",
  chars! "1.0000000003152455e-12",
  chars! "0.014801745343243522",
  chars! "0.2193805512919039",
  chars! "0.3919032829850166",
  chars! "0.36313677048140686",
  chars! "0.19503725104072525",
  chars! "0.48038270328563304",
  chars! "0.7111841563783056",
  chars! "1e-12",
  chars! "1.000000470395983e-12",
  chars! "5.715500040644243",
  chars! "0.06387398042026943",
  chars! "6.693258392458916",
  chars! "2.4455831212192773",
  chars! "3.7993172863831806",
  chars! "5.502338284145066",
  chars! "2.136844528796241",
  chars! "0.4131301377872254"], [
  chars! "835580.5615011666",
  chars! "835580.541624377",
  chars! "835580.2251050017",
  chars! "835569.5750991757",
  chars! "287892.0192705005",
  chars! "285977.91648932965",
  chars! "285215.81997846655",
  chars! "77162.21293112122",
  chars! "77161.22242720852",
  chars! "11892.218464857122",
  chars! "8046.754688647885",
  chars! "6176.165352909837",
  chars! "3747.4916420846052",
  chars! "2337.818591720575",
  chars! "1479.4554258614894",
  chars! "887.5109962232415",
  chars! "238.00893017493695",
  chars! "141.71504125830452",
  chars! "103.4706690825171",
  chars! "87.78909162218322",
  chars! "13.548600248168377",
  chars! "12.259312624325439",
  chars! "12.5791218598509",
  chars! "12.337347198009086",
  chars! "0.10446238853373153",
  chars! "0.3198333610743283",
  chars! "0.31632423867491455",
  chars! "0.05604197930744605",
  chars! "0.07987251532828156",
  chars! "0.035141975985436655",
  chars! "1.0000939735622207e-12",
  chars! "336761.82645455725",
  chars! "94188.28857089717",
  chars! "94188.2850651299",
  chars! "25128.744433573596",
  chars! "25127.04720956891",
  chars! "9417.649965082815",
  chars! "5584.943189058277",
  chars! "3031.108456157185",
  chars! "1713.4379906518714",
  chars! "875.7314718999058",
  chars! "278.4249245623335",
  chars! "159.91097265569383",
  chars! "109.12065802797527",
  chars! "26.210274451018428",
  chars! "22.8556058217768",
  chars! "13.178189430323176",
  chars! "13.174710504912397",
  chars! "2.6311745455851083",
  chars! "2.621203213075205",
  chars! "1.471087730739326",
  chars! "0.802584966358331",
  chars! "0.20666921202280913"]⟩

theorem fits_ru_ok : fitsOk neutral_ru fpi_ru slsqp_ru = true := by decide +kernel

/-- `rh` in `data/kl_fpi_results.json`. -/
noncomputable def fpi_rh : JEntry := ⟨chars! "rh", chars! "32", chars! "21", [
  chars! "1.5199679043075418e-08",
  chars! "3.7733904543609415e-08",
  chars! "5.118862337716979e-08",
  chars! "2.07141534152204e-06",
  chars! "2.456593908499449e-05",
  chars! "0.00013405601468413817",
  chars! "0.0004757916047429172",
  chars! "0.0011058677813443889",
  chars! "0.0007804069203927176",
  chars! "0.001519117425454581",
  chars! "0.003247663941558205",
  chars! "0.013125080413786228",
  chars! "0.03931743425211212",
  chars! "0.08391368895752405",
  chars! "0.15211606920085866",
  chars! "0.21889290874944772",
  chars! "0.2523014429858846",
  chars! "0.40741012986148994",
  chars! "0.774009947895755",
  chars! "1.1355518089573349",
  chars! "1.0678092233320333",
  chars! "1.457013703382159",
  chars! "2.295908713909044",
  chars! "2.3138391037781436",
  chars! "1.161556654592258",
  chars! "1.519943926134477",
  chars! "1.9499161023239575",
  chars! "1.7978437859817082",
  chars! "1.3082822175275077",
  chars! "0.998039152841922",
  chars! "0.697064690343814",
  chars! "0.10923043119150762",
  chars! "0.004448604197593279",
  chars! "0.0057179083042521875",
  chars! "0.021805643821580373",
  chars! "0.042164389579353125",
  chars! "0.1086157071077293",
  chars! "0.14161759543502211",
  chars! "0.24026131376058973",
  chars! "0.28499566968518697",
  chars! "0.2383413240144788",
  chars! "0.7935823624201368",
  chars! "1.2210333570191425",
  chars! "1.5864807965812138",
  chars! "0.9067017540143477",
  chars! "2.957562125859114",
  chars! "3.7073202721746443",
  chars! "2.4839718406597053",
  chars! "2.260111444626605",
  chars! "3.52928669228946",
  chars! "2.4088395086942653",
  chars! "1.5207560456030251",
  chars! "0.7760097814010168"], [
  chars! "19940215.234238315",
  chars! "19940215.11897919",
  chars! "19940215.015680663",
  chars! "229063.86612126083",
  chars! "229063.86611606242",
  chars! "229063.8661141123",
  chars! "229063.86611158965",
  chars! "229063.866090385",
  chars! "86429.45277339077",
  chars! "86428.27804470979",
  chars! "12762.267820263767",
  chars! "7829.527137875378",
  chars! "6319.681889326218",
  chars! "3819.435924327155",
  chars! "2378.8653175186296",
  chars! "1476.9430241570087",
  chars! "922.4573093923912",
  chars! "244.03610198176477",
  chars! "140.95754597798748",
  chars! "106.61754879017928",
  chars! "93.01808012937698",
  chars! "14.792463749269187",
  chars! "12.656078789234904",
  chars! "12.312802334619509",
  chars! "11.753363820954705",
  chars! "1.2436366373282721",
  chars! "0.9560297296122441",
  chars! "0.7296323751377072",
  chars! "0.4955447388725364",
  chars! "0.19771794571457565",
  chars! "0.10115954753431078",
  chars! "0.05343740433673641",
  chars! "102041.04367713092",
  chars! "102041.04367661358",
  chars! "27499.138179380432",
  chars! "27497.223764684742",
  chars! "9925.98504537341",
  chars! "5446.5219871478375",
  chars! "3073.3039117365374",
  chars! "1685.0932295870707",
  chars! "856.1972296006508",
  chars! "297.8600409354011",
  chars! "168.2389275463247",
  chars! "120.58071300139324",
  chars! "27.911463731203",
  chars! "23.78019346299748",
  chars! "15.956620795947321",
  chars! "14.739145762117783",
  chars! "2.6427979607295384",
  chars! "2.6177850984716518",
  chars! "1.7249189248176333",
  chars! "1.0255968640326647",
  chars! "0.4540191686397431"]⟩

/-- `rh` in `data/kl_slsqp_results.json`. -/
noncomputable def slsqp_rh : JEntry := ⟨chars! "rh", chars! "32", chars! "21", [
  chars! "8.414781958482003e-08",
  chars! "1.545108661741625e-07",
  chars! "7.781251762309437e-08",
  chars! "1.0000164745396714e-12",
  chars! "0.0008146735354990457",
  chars! "1.0000723965464464e-12",
  chars! "1e-12",
  chars! "1.0003685413371043e-12",
  chars! "1e-12",
  chars! "1e-12",
  chars! "0.06616413407821323",
  chars! "1.0000507726250568e-12",
  chars! "0.2920982776425156",
  chars! "1e-12",
  chars! "1e-12",
  chars! "1.0000126704466696e-12",
  chars! "0.04365310058703458",
  chars! "1.0001925761325448e-12",
  chars! "0.4621990923158866",
  chars! "1e-12",
  chars! "5.473741631014846",
  chars! "1.0372890488211266",
  chars! "1.36787769656434",
  chars! "1.319155462760435",
  chars! "1e-12",
  chars! "0.5245130083990412",
  chars! "1.375697511182688",
  chars! "0.7416293894457063",
  chars! "0.16371237780362724",
  chars! "0.06802866895361073",
  chars! "0.061760142980664665",
  chars! "0.003876283637403213",
  chars! "0.0008290798698869799",
  chars! "0.0022347186304971733",
  chars! "1.0000010596248587e-12",
  chars! "1.0000046698407035e-12",
  chars! "1.0000073732861482e-12",
  chars! "0.22609784128761187",
  chars! "0.42930553990053333",
  chars! "0.49061591005375044",
  chars! "0.2913162859951701",
  chars! "0.6040522768091333",
  chars! "0.891467739468368",
  chars! "1e-12",
  chars! "0.6154102159785417",
  chars! "5.023260657766321",
  chars! "4.429386625125269",
  chars! "3.4167620026224204",
  chars! "2.876941738238914",
  chars! "4.157395448088525",
  chars! "5.903858027539904",
  chars! "2.251174353915652",
  chars! "0.3876981511441749"], [
  chars! "19940215.234238315",
  chars! "19940215.11897919",
  chars! "19940215.015680663",
  chars! "229063.86615855683",
  chars! "229063.8661568385",
  chars! "229063.86686141416",
  chars! "229063.86612752426",
  chars! "229063.86609620045",
  chars! "86429.45277341337",
  chars! "86428.27804474747",
  chars! "12762.357605002124",
  chars! "7829.527123121721",
  chars! "6319.5755425174475",
  chars! "3819.435991232879",
  chars! "2378.864373497425",
  chars! "1477.0018748453979",
  chars! "922.3698757325312",
  chars! "244.02136820748436",
  chars! "140.97108165760218",
  chars! "106.3317273469281",
  chars! "90.69734640802936",
  chars! "14.067889841463964",
  chars! "14.179391033988576",
  chars! "13.945278941738739",
  chars! "12.919056978064631",
  chars! "0.09574248819626632",
  chars! "0.3144927817378923",
  chars! "0.3167633820030843",
  chars! "0.3257068561279657",
  chars! "0.054354935369831665",
  chars! "0.06523498637750748",
  chars! "0.03454819474250216",
  chars! "102041.02855126184",
  chars! "102041.00306339625",
  chars! "27499.13829622876",
  chars! "27497.223817389793",
  chars! "9925.984825718482",
  chars! "5446.731145337356",
  chars! "3073.36881744176",
  chars! "1685.2695701960931",
  chars! "856.2704332980808",
  chars! "295.8427263271202",
  chars! "172.2091230117678",
  chars! "118.92599060268272",
  chars! "25.611688782639558",
  chars! "25.02289143247613",
  chars! "14.527530552537662",
  chars! "14.548891957199983",
  chars! "2.762169924165556",
  chars! "2.7634894615475227",
  chars! "1.51526246902866",
  chars! "0.8102879217136529",
  chars! "0.19924180663999902"]⟩

theorem fits_rh_ok : fitsOk neutral_rh fpi_rh slsqp_rh = true := by decide +kernel

/-- `pd` in `data/kl_fpi_results.json`. -/
noncomputable def fpi_pd : JEntry := ⟨chars! "pd", chars! "29", chars! "22", [
  chars! "5.4071499374210684e-08",
  chars! "1.9623463250041782e-08",
  chars! "4.937021445195346e-07",
  chars! "7.56657926832435e-06",
  chars! "4.778096941158535e-05",
  chars! "0.0001890423761588037",
  chars! "0.0005255434288405729",
  chars! "0.0008917710777154454",
  chars! "0.0008511916849581768",
  chars! "0.0016388460865859136",
  chars! "0.003072530998847793",
  chars! "0.013572041906547868",
  chars! "0.04086224210552527",
  chars! "0.0869169401163807",
  chars! "0.1563882335032814",
  chars! "0.22456976385322155",
  chars! "0.2554584369282245",
  chars! "0.42045418761233366",
  chars! "0.7913253714834511",
  chars! "1.1304869760610445",
  chars! "0.9985466885932853",
  chars! "1.7009118820143228",
  chars! "2.5017373042092745",
  chars! "2.4011820497908127",
  chars! "0.4288984987526669",
  chars! "1.6986384389691485",
  chars! "2.2425170461080315",
  chars! "2.0913275379513014",
  chars! "1.304692824181197",
  chars! "0.001889399098042573",
  chars! "0.008260952959747624",
  chars! "0.00402907730477034",
  chars! "0.02306369351114166",
  chars! "0.038835813956888884",
  chars! "0.12030493313249235",
  chars! "0.14601746485372502",
  chars! "0.24621129262624833",
  chars! "0.29374937436633025",
  chars! "0.2209758720497409",
  chars! "0.837493001806868",
  chars! "1.247222205976684",
  chars! "1.5328642834627682",
  chars! "1.3495426404109747",
  chars! "3.169896448227254",
  chars! "3.861657078908214",
  chars! "2.2856178999873666",
  chars! "2.925486208684316",
  chars! "4.359301530603422",
  chars! "3.0607066993205736",
  chars! "1.7206416966182314",
  chars! "0.050521125716482505"], [
  chars! "25229832.847312905",
  chars! "25229832.74849291",
  chars! "246177.45385451653",
  chars! "246177.45385439077",
  chars! "246177.4538543457",
  chars! "246177.45385430654",
  chars! "246177.4538542306",
  chars! "246177.45384894084",
  chars! "91291.40427597314",
  chars! "91291.28389271487",
  chars! "12764.03483029249",
  chars! "7597.598881429258",
  chars! "6300.7170289269225",
  chars! "3803.6677261008367",
  chars! "2398.3128623699254",
  chars! "1461.5328040700267",
  chars! "953.0400957252825",
  chars! "244.3843196888579",
  chars! "143.40035509157545",
  chars! "111.78069666108777",
  chars! "94.07115935953897",
  chars! "15.84866106000273",
  chars! "14.049167605301717",
  chars! "13.672762682512662",
  chars! "1.6983161333962271",
  chars! "1.081403727591515",
  chars! "0.9134054043908184",
  chars! "0.7357520645740663",
  chars! "0.22029743232729138",
  chars! "107879.03736123143",
  chars! "107879.03736122677",
  chars! "28846.74083814152",
  chars! "28846.663298587635",
  chars! "28845.47886342839",
  chars! "10184.619013309286",
  chars! "5395.764106611591",
  chars! "3109.129825302146",
  chars! "1641.8341879486447",
  chars! "806.6684083707319",
  chars! "308.24714415032815",
  chars! "173.68019394853604",
  chars! "127.30376104592028",
  chars! "30.72571186845008",
  chars! "23.218557907863143",
  chars! "16.46198301428524",
  chars! "15.80751301390556",
  chars! "2.6895515804328776",
  chars! "2.675921058876318",
  chars! "1.3746655271138315",
  chars! "0.575007227903058",
  chars! "0.12304497325281882"]⟩

/-- `pd` in `data/kl_slsqp_results.json`. -/
noncomputable def slsqp_pd : JEntry := ⟨chars! "pd", chars! "29", chars! "22", [
  chars! "1e-12",
  chars! "2.1023044358543856e-07",
  chars! "1.0322363937620242e-12",
  chars! "0.0005888436276350358",
  chars! "1.035871979936916e-12",
  chars! "1.0373931595935148e-12",
  chars! "0.0001846245879321457",
  chars! "0.00015835946766013868",
  chars! "1e-12",
  chars! "1.0000027777502757e-12",
  chars! "0.05561573684671271",
  chars! "1e-12",
  chars! "0.28138110553026524",
  chars! "1.000094080807799e-12",
  chars! "1e-12",
  chars! "0.3486757767487819",
  chars! "0.13200260694602747",
  chars! "0.24107139270718486",
  chars! "1e-12",
  chars! "1.0000630179968195e-12",
  chars! "5.3078051876158225",
  chars! "0.3234186813923006",
  chars! "0.6092886972218834",
  chars! "0.5127952871513574",
  chars! "1e-12",
  chars! "0.42449625431610827",
  chars! "2.4080929548945624",
  chars! "2.377586754982448",
  chars! "1.7333863968368615",
  chars! "1.0008592103183895e-12",
  chars! "0.004085085580821487",
  chars! "0.005479195383920203",
  chars! "1e-12",
  chars! "1e-12",
  chars! "1.0000675646348118e-12",
  chars! "0.18935028937462722",
  chars! "0.3175684095246088",
  chars! "0.29770292619693456",
  chars! "0.2752508436547783",
  chars! "0.7443984043891367",
  chars! "1.3792505072123689",
  chars! "1e-12",
  chars! "3.1851730479971407",
  chars! "2.486104144009477",
  chars! "5.594404347635656",
  chars! "4.049153616723578",
  chars! "3.0606642333641507",
  chars! "4.549078905307546",
  chars! "5.0921701662190735",
  chars! "0.013352411539240083",
  chars! "0.00027952038030533297"], [
  chars! "25229832.847312905",
  chars! "25229832.74849291",
  chars! "246177.45387864823",
  chars! "246177.45401436838",
  chars! "246177.4538982367",
  chars! "246177.45388417592",
  chars! "246177.45386308292",
  chars! "246177.45385332542",
  chars! "91291.40427595346",
  chars! "91291.28389269253",
  chars! "12764.05886721389",
  chars! "7597.598880542459",
  chars! "6300.705483726233",
  chars! "3803.6685189822274",
  chars! "2398.3132749383835",
  chars! "1461.6241909085327",
  chars! "952.9184732221926",
  chars! "244.36806590810016",
  chars! "143.46833019379685",
  chars! "111.49765573654776",
  chars! "89.9327822241474",
  chars! "15.734664231375762",
  chars! "15.483873270109813",
  chars! "16.08966939026633",
  chars! "0.8825594596036209",
  chars! "0.15625174007667578",
  chars! "0.5973489625197799",
  chars! "0.5984536964260505",
  chars! "0.2960769209207906",
  chars! "107879.03622844248",
  chars! "107879.01637532644",
  chars! "28846.749638841553",
  chars! "28846.664951322782",
  chars! "28845.478963201687",
  chars! "10184.618620249374",
  chars! "5395.764870246774",
  chars! "3109.033212253948",
  chars! "1641.6923467076394",
  chars! "806.5688036839584",
  chars! "306.38843504897216",
  chars! "178.23044619852482",
  chars! "125.85355830005766",
  chars! "28.632733616459106",
  chars! "28.242706912375084",
  chars! "16.349817909661205",
  chars! "16.263613679062708",
  chars! "2.828461381160577",
  chars! "2.819966266986766",
  chars! "1.5063305420684558",
  chars! "0.10301746693063504",
  chars! "0.057282778620684094"]⟩

theorem fits_pd_ok : fitsOk neutral_pd fpi_pd slsqp_pd = true := by decide +kernel

/-- `ag` in `data/kl_fpi_results.json`. -/
noncomputable def fpi_ag : JEntry := ⟨chars! "ag", chars! "31", chars! "21", [
  chars! "5.807625662921517e-08",
  chars! "3.326588943993327e-08",
  chars! "7.3928367674809985e-06",
  chars! "7.097088171911324e-05",
  chars! "0.00035701388115756005",
  chars! "0.0011716125216462484",
  chars! "0.0002732210693002799",
  chars! "0.0010044386538665014",
  chars! "0.0018909765517047229",
  chars! "0.003319399848887289",
  chars! "0.014512867696641646",
  chars! "0.04326235556480371",
  chars! "0.09071547924828442",
  chars! "0.16215584952708773",
  chars! "0.23265164676998681",
  chars! "0.2650214926495451",
  chars! "0.43268981166463333",
  chars! "0.8073289240313806",
  chars! "1.1170005122118467",
  chars! "0.8784336944630797",
  chars! "1.811066312947675",
  chars! "2.5146667804365794",
  chars! "2.298584034241276",
  chars! "0.7068542722955223",
  chars! "1.5968458687955374",
  chars! "1.953091866717336",
  chars! "1.7378545306751283",
  chars! "1.2445327459002962",
  chars! "0.9050148900447813",
  chars! "0.6490045497233893",
  chars! "0.10184013220993665",
  chars! "0.010376939558307943",
  chars! "0.004538004360316213",
  chars! "0.024452410579216925",
  chars! "0.040013975913372815",
  chars! "0.12729311235100668",
  chars! "0.15021083805937277",
  chars! "0.25489094999440526",
  chars! "0.3068315733947087",
  chars! "0.21084535390562936",
  chars! "0.8692492789604686",
  chars! "1.2769426607117274",
  chars! "1.4644961802445833",
  chars! "1.6747692627235036",
  chars! "3.310836883686047",
  chars! "3.7523675015864444",
  chars! "1.897561827350862",
  chars! "3.1856419534289038",
  chars! "4.2778982471423115",
  chars! "2.4776523649944737",
  chars! "1.405725052728862",
  chars! "0.706181892923532"], [
  chars! "23453242.763887182",
  chars! "23453242.528836444",
  chars! "252500.6429946978",
  chars! "252500.64299466868",
  chars! "252500.64299465512",
  chars! "252500.64299463198",
  chars! "90858.73605658446",
  chars! "90858.28452201541",
  chars! "90858.22906109187",
  chars! "13309.971299741868",
  chars! "7667.792990033709",
  chars! "6389.322029393932",
  chars! "3818.97990942995",
  chars! "2415.1383120579867",
  chars! "1432.09251864309",
  chars! "963.0222394294017",
  chars! "244.5862992054464",
  chars! "146.83121174569774",
  chars! "119.40647079607852",
  chars! "95.86279210468507",
  chars! "16.686138785197926",
  chars! "15.445952776569088",
  chars! "15.064933679703847",
  chars! "1.4968069452590191",
  chars! "1.1994647633520001",
  chars! "0.9880227477404829",
  chars! "0.7457601277958791",
  chars! "0.5095643445314502",
  chars! "0.2055121287454532",
  chars! "0.09968053711925297",
  chars! "0.052730984703271276",
  chars! "107987.37576004014",
  chars! "29072.600767279684",
  chars! "29072.53123192744",
  chars! "29071.103968318257",
  chars! "10245.934782306429",
  chars! "5377.12290639792",
  chars! "3130.741866983172",
  chars! "1574.6554438266453",
  chars! "690.4656306871631",
  chars! "313.7893227251045",
  chars! "175.47894248949623",
  chars! "136.56106120459756",
  chars! "32.992997629670114",
  chars! "22.17808328654604",
  chars! "17.890960129242554",
  chars! "17.075520669811702",
  chars! "2.917017505539742",
  chars! "2.906843687014597",
  chars! "1.7512165955790329",
  chars! "1.1348271760813744",
  chars! "0.516265487195646"]⟩

/-- `ag` in `data/kl_slsqp_results.json`. -/
noncomputable def slsqp_ag : JEntry := ⟨chars! "ag", chars! "31", chars! "21", [
  chars! "1.6592236623488048e-08",
  chars! "2.0177670116832863e-07",
  chars! "1e-12",
  chars! "0.0005332864927326011",
  chars! "0.0004044066893521026",
  chars! "1e-12",
  chars! "1.000000327611449e-12",
  chars! "1.0000004140017246e-12",
  chars! "1.0000003844024532e-12",
  chars! "0.05756378656121762",
  chars! "1.0000066141209155e-12",
  chars! "0.2533440760255281",
  chars! "1e-12",
  chars! "1.0001624932143564e-12",
  chars! "0.6015792876766637",
  chars! "0.4828486166432612",
  chars! "0.3317484730154492",
  chars! "1e-12",
  chars! "1.0000566403092063e-12",
  chars! "4.994458225879297",
  chars! "1e-12",
  chars! "1e-12",
  chars! "1e-12",
  chars! "0.8734799083958911",
  chars! "0.2163775004455932",
  chars! "0.8252371083376963",
  chars! "0.07423019829565328",
  chars! "1.0000329384092428e-12",
  chars! "0.7554877837813414",
  chars! "0.19032069511797742",
  chars! "0.0024647759462860385",
  chars! "0.004085391472549457",
  chars! "0.0038501670521163844",
  chars! "1.000053638119958e-12",
  chars! "1.0000015426294549e-12",
  chars! "1e-12",
  chars! "0.16464036357339468",
  chars! "0.19415169809491853",
  chars! "1.0001184590351732e-12",
  chars! "0.22151970642046545",
  chars! "0.8560159544462622",
  chars! "1.6665141581923992",
  chars! "1e-12",
  chars! "6.016607701387478",
  chars! "1e-12",
  chars! "6.155790400639729",
  chars! "4.413881108591869",
  chars! "3.7166287787891963",
  chars! "4.81326933762538",
  chars! "2.4268165864231723",
  chars! "6.680879824894895",
  chars! "0.005277617328407328"], [
  chars! "23453242.763887182",
  chars! "23453242.528836444",
  chars! "252500.64301129483",
  chars! "252500.6430309852",
  chars! "252500.64300930113",
  chars! "252500.64302944925",
  chars! "90858.73605656922",
  chars! "90858.28452197733",
  chars! "90858.2290610025",
  chars! "13310.003221209432",
  chars! "7667.7929729673415",
  chars! "6389.368530841187",
  chars! "3818.980365850482",
  chars! "2415.136459043067",
  chars! "1432.101752066017",
  chars! "963.0270621149845",
  chars! "244.56441901951874",
  chars! "147.01141715323695",
  chars! "119.28064691188438",
  chars! "89.20240742037082",
  chars! "16.591299015212623",
  chars! "17.0609523957891",
  chars! "16.875657923205484",
  chars! "0.34386435744457183",
  chars! "0.08447924324700004",
  chars! "0.3443289918029297",
  chars! "0.05279074887467741",
  chars! "0.9841229730933738",
  chars! "0.15264277431916912",
  chars! "0.08776424996265361",
  chars! "0.03278339548836872",
  chars! "107987.37334321375",
  chars! "29072.616365280173",
  chars! "29072.532484818683",
  chars! "29071.104290967116",
  chars! "10245.934363893062",
  chars! "5377.2017396125875",
  chars! "3130.6166397434777",
  chars! "1574.656378471004",
  chars! "690.6787739977916",
  chars! "310.5410355612171",
  chars! "180.89763181676352",
  chars! "135.6857944759242",
  chars! "30.913352306981473",
  chars! "24.046472318858306",
  chars! "17.665830057784106",
  chars! "17.753398067822832",
  chars! "3.071835121194945",
  chars! "3.0749214643349525",
  chars! "0.856286466833298",
  chars! "1.6371561384135338",
  chars! "0.10712874579057012"]⟩

theorem fits_ag_ok : fitsOk neutral_ag fpi_ag slsqp_ag = true := by decide +kernel

/-- `cd` in `data/kl_fpi_results.json`. -/
noncomputable def fpi_cd : JEntry := ⟨chars! "cd", chars! "31", chars! "20", [
  chars! "2.51509246908355e-08",
  chars! "4.884501650612017e-08",
  chars! "3.386770460871399e-08",
  chars! "7.914622418360348e-06",
  chars! "7.399200709205706e-05",
  chars! "0.00036931507737994034",
  chars! "0.0012045141792029234",
  chars! "0.00030557625116068947",
  chars! "0.0010785272689847827",
  chars! "0.00198926416877638",
  chars! "0.0036039090192809733",
  chars! "0.015583744640268574",
  chars! "0.0460203342479606",
  chars! "0.09506404697219183",
  chars! "0.16897818790354627",
  chars! "0.23968408304560515",
  chars! "0.27885990679383604",
  chars! "0.45595893926517284",
  chars! "0.8447642508940864",
  chars! "1.12980199585764",
  chars! "0.6534042398757206",
  chars! "1.8668818622329402",
  chars! "2.4697005408200754",
  chars! "2.144854107526593",
  chars! "0.9138398827218167",
  chars! "1.7589437753790362",
  chars! "2.0115730168436357",
  chars! "1.642418897811925",
  chars! "1.8876296311468002",
  chars! "1.4356585460543698",
  chars! "0.19797014093501772",
  chars! "0.010711846182281715",
  chars! "0.0055876784490866945",
  chars! "0.026371792121637982",
  chars! "0.03933933579459522",
  chars! "0.13483559338355447",
  chars! "0.15519518601390497",
  chars! "0.2656034471643335",
  chars! "0.3139500085825918",
  chars! "0.24680701765922303",
  chars! "0.8650069459633701",
  chars! "1.362554883270265",
  chars! "1.4390761138672659",
  chars! "1.8759029586235791",
  chars! "3.5760339940100185",
  chars! "3.7585523378885006",
  chars! "1.48166521562045",
  chars! "3.7453750318267507",
  chars! "4.606070697240673",
  chars! "2.739905989325462",
  chars! "1.0852306753588257"], [
  chars! "22369079.176022794",
  chars! "22369079.061153024",
  chars! "22369078.89525496",
  chars! "256987.89358537144",
  chars! "256987.8935853252",
  chars! "256987.89358530284",
  chars! "256987.89358526326",
  chars! "92192.71967758628",
  chars! "92192.19385031107",
  chars! "92192.09794566371",
  chars! "14248.820911897454",
  chars! "7772.822376001142",
  chars! "6481.516279360774",
  chars! "3841.6210183293315",
  chars! "2433.247386121933",
  chars! "1424.934771081699",
  chars! "908.1560548178901",
  chars! "251.76666108401056",
  chars! "150.3793253303148",
  chars! "130.0278227852135",
  chars! "81.0461619480191",
  chars! "17.39871658724388",
  chars! "16.80521934438121",
  chars! "16.5213540217254",
  chars! "1.3874530287043154",
  chars! "1.232358950282029",
  chars! "1.1168118043414434",
  chars! "0.8549453040234147",
  chars! "0.30721432321948544",
  chars! "0.13265290856623718",
  chars! "0.06660870547316873",
  chars! "109692.14373951603",
  chars! "29594.82580565006",
  chars! "29594.777553135566",
  chars! "29591.999264790393",
  chars! "10363.189052416861",
  chars! "5362.74563306498",
  chars! "3144.7701082124076",
  chars! "1528.4105539027744",
  chars! "556.283809883188",
  chars! "317.6875304292274",
  chars! "173.24418993396728",
  chars! "151.03693383803738",
  chars! "34.616703717997495",
  chars! "21.389569742407932",
  chars! "19.916761278608845",
  chars! "18.955332200787446",
  chars! "3.100991364247079",
  chars! "3.089001357792177",
  chars! "1.7171954953899806",
  chars! "0.8691904878548137"]⟩

/-- `cd` in `data/kl_slsqp_results.json`. -/
noncomputable def slsqp_cd : JEntry := ⟨chars! "cd", chars! "31", chars! "20", [
  chars! "1.0000290761148244e-12",
  chars! "1.0000000000001e-12",
  chars! "2.718545762125957e-07",
  chars! "1e-12",
  chars! "1e-12",
  chars! "0.0008796357334171532",
  chars! "1.006517512966783e-12",
  chars! "1e-12",
  chars! "1.0000004662717215e-12",
  chars! "1e-12",
  chars! "0.0610812520716734",
  chars! "1e-12",
  chars! "0.277020572078928",
  chars! "1e-12",
  chars! "1.0000551517181193e-12",
  chars! "0.5762472752291442",
  chars! "0.6357971130717679",
  chars! "0.29587514300809026",
  chars! "1.0002752648946692e-12",
  chars! "1.0000229757272231e-12",
  chars! "2.482443128006693",
  chars! "1.0000320199262024e-12",
  chars! "1.0000129327918016e-12",
  chars! "1.000019267695964e-12",
  chars! "1.268828734034143",
  chars! "0.7057615921890442",
  chars! "2.823914517685973",
  chars! "0.6709120517101574",
  chars! "0.3729406681674625",
  chars! "0.029535240569504427",
  chars! "0.000258249831480862",
  chars! "0.0035348096749724927",
  chars! "1e-12",
  chars! "1.001263015237635e-12",
  chars! "1e-12",
  chars! "1.0000216454089398e-12",
  chars! "0.1758391976309334",
  chars! "0.2146419387645521",
  chars! "1e-12",
  chars! "0.4886828198674252",
  chars! "1.645567642171415",
  chars! "1.1998718828105202",
  chars! "1.7109820871994734",
  chars! "5.2620128846829015",
  chars! "5.2283068881213595",
  chars! "5.802720238519638",
  chars! "0.2185879698781387",
  chars! "4.196264154078803",
  chars! "5.1370489631811065",
  chars! "5.796237516801854",
  chars! "0.7182087573603422"], [
  chars! "22369079.17602278",
  chars! "22369079.06115285",
  chars! "22369078.89525494",
  chars! "256987.9099057008",
  chars! "256987.89459634907",
  chars! "256987.90082239456",
  chars! "256987.91973871787",
  chars! "92192.71967673097",
  chars! "92192.19384974476",
  chars! "92192.09794530453",
  chars! "14251.8748771032",
  chars! "7772.822261765154",
  chars! "6474.351512152643",
  chars! "3841.6213001102856",
  chars! "2433.246083554644",
  chars! "1423.1410157175885",
  chars! "892.2930774588875",
  chars! "251.72492680399333",
  chars! "151.00669785631632",
  chars! "130.11734422447586",
  chars! "88.81096145122063",
  chars! "17.11998218438628",
  chars! "16.77122842341103",
  chars! "16.55298980524467",
  chars! "0.1435285285505783",
  chars! "0.6074992024022919",
  chars! "0.6077009606573115",
  chars! "0.6073125778089824",
  chars! "0.08385284433877215",
  chars! "0.05118698040842766",
  chars! "0.0308585714033097",
  chars! "109691.1916861202",
  chars! "29595.13493943302",
  chars! "29594.645443724028",
  chars! "29591.99956502322",
  chars! "10363.1879665105",
  chars! "5372.289016820277",
  chars! "3133.095096104894",
  chars! "1528.4115466469004",
  chars! "556.2883178878113",
  chars! "277.1991419819935",
  chars! "187.05527267250145",
  chars! "134.86469627918925",
  chars! "34.24390236096105",
  chars! "19.477738384454206",
  chars! "19.490688413652705",
  chars! "19.274269128610886",
  chars! "3.2093444783213587",
  chars! "3.2141501958521808",
  chars! "1.6785443877815285",
  chars! "0.33565204756300326"]⟩

theorem fits_cd_ok : fitsOk neutral_cd fpi_cd slsqp_cd = true := by decide +kernel

/-- `in` in `data/kl_fpi_results.json`. -/
noncomputable def fpi_in : JEntry := ⟨chars! "in", chars! "30", chars! "22", [
  chars! "7.657021150651661e-06",
  chars! "7.897384848695579e-05",
  chars! "0.0003245390094491379",
  chars! "0.000743594354056799",
  chars! "0.0003633125674708118",
  chars! "0.00011073101487190818",
  chars! "0.0004495851561487049",
  chars! "0.0012140432436021226",
  chars! "0.0021226216016042416",
  chars! "0.004142510958572599",
  chars! "0.01701271490486165",
  chars! "0.0492523221103481",
  chars! "0.09983830851430263",
  chars! "0.1743281421187134",
  chars! "0.24317445023955786",
  chars! "0.2866464308302403",
  chars! "0.48843124335038735",
  chars! "0.8936667090019532",
  chars! "1.1659570505837762",
  chars! "0.7893728181392088",
  chars! "1.9418620325553315",
  chars! "2.4570848702997212",
  chars! "2.0181048319548145",
  chars! "0.9849200987956281",
  chars! "1.7168601340136673",
  chars! "1.8461634424972535",
  chars! "1.4373412819034248",
  chars! "1.2374473519790323",
  chars! "0.9868809348529294",
  chars! "0.719748641801063",
  chars! "0.010393867383992733",
  chars! "0.030879632519748016",
  chars! "0.04089506380878111",
  chars! "0.14034691358982937",
  chars! "0.1616764188901054",
  chars! "0.269904349700644",
  chars! "0.3128595197154923",
  chars! "0.29733379319618813",
  chars! "0.884381583727149",
  chars! "1.4487496412311982",
  chars! "1.443616902972281",
  chars! "1.7614099482307402",
  chars! "3.835237513059157",
  chars! "3.7684537129927915",
  chars! "0.9135503659992832",
  chars! "4.294031026010235",
  chars! "4.851549895107582",
  chars! "2.554733076215742",
  chars! "0.8927304005504209",
  chars! "0.8404657695782871",
  chars! "0.6618284565599788",
  chars! "0.021320769738746068"], [
  chars! "271954.11788327695",
  chars! "271954.1178832669",
  chars! "271954.1178832644",
  chars! "271954.1178832606",
  chars! "271954.11788312363",
  chars! "94472.51066938014",
  chars! "94472.45591994481",
  chars! "94472.4286973087",
  chars! "94472.35278817119",
  chars! "15354.115678067106",
  chars! "8007.59215056436",
  chars! "6591.82613886833",
  chars! "3929.492874658411",
  chars! "2469.8740044621595",
  chars! "1449.390548350527",
  chars! "852.2245432164087",
  chars! "256.9255115716472",
  chars! "153.26564469106333",
  chars! "133.43559553195107",
  chars! "33.00901651093071",
  chars! "18.76041870399114",
  chars! "18.457812079756245",
  chars! "18.253580346941433",
  chars! "1.3884518090836926",
  chars! "1.2797459325335534",
  chars! "1.1817458198309958",
  chars! "0.907396148458121",
  chars! "0.43757028786161284",
  chars! "0.19442998291806154",
  chars! "0.08184366080353302",
  chars! "113219.84022622448",
  chars! "30582.225801565583",
  chars! "30577.840540539175",
  chars! "10582.161210032575",
  chars! "5372.99284455358",
  chars! "3171.85547507441",
  chars! "1548.3736305160257",
  chars! "519.4803261293771",
  chars! "321.1576304260424",
  chars! "176.96024903472644",
  chars! "157.70734729147563",
  chars! "31.650444677527833",
  chars! "21.614973562358454",
  chars! "21.411486321427926",
  chars! "21.056704792117948",
  chars! "3.3134994622270564",
  chars! "3.3065717565301855",
  chars! "1.9147282399296999",
  chars! "1.1108763187202368",
  chars! "0.41489918803566367",
  chars! "0.19479750212784147",
  chars! "0.048999968968587444"]⟩

/-- `in` in `data/kl_slsqp_results.json`. -/
noncomputable def slsqp_in : JEntry := ⟨chars! "in", chars! "30", chars! "22", [
  chars! "1.0003822426579177e-12",
  chars! "1e-12",
  chars! "1e-12",
  chars! "1e-12",
  chars! "0.0008638148953612527",
  chars! "1e-12",
  chars! "1e-12",
  chars! "6.509506200927986e-07",
  chars! "7.961571613585547e-05",
  chars! "0.11067705030376587",
  chars! "1.000009356964518e-12",
  chars! "0.09827599892747008",
  chars! "1e-12",
  chars! "1e-12",
  chars! "0.6910595375319432",
  chars! "0.30582169177171037",
  chars! "1e-12",
  chars! "4.1548832609625155",
  chars! "1.1454003514264965",
  chars! "1.0002533886724441e-12",
  chars! "1.0006309672535813e-12",
  chars! "1.0000569993837528e-12",
  chars! "1e-12",
  chars! "0.015401208962338866",
  chars! "0.10101894579114265",
  chars! "0.5018191189926464",
  chars! "0.09453522678812121",
  chars! "0.00022585441590335833",
  chars! "1.0000044371155778e-12",
  chars! "0.43064113439419505",
  chars! "0.003465454797259642",
  chars! "0.0015290545113066396",
  chars! "1e-12",
  chars! "0.10353498046775872",
  chars! "0.227971919591996",
  chars! "0.17868916909625385",
  chars! "1.000077350732424e-12",
  chars! "1.0000234287572555e-12",
  chars! "0.457772676349617",
  chars! "0.6250674443584442",
  chars! "1.6442749762594013",
  chars! "4.9786237153703725",
  chars! "4.817765048639887",
  chars! "4.7214101833213915",
  chars! "2.0543265793370926",
  chars! "4.849913502850677",
  chars! "5.408325237325281",
  chars! "6.942650837605572",
  chars! "2.1757221349629874",
  chars! "0.8213245693148008",
  chars! "1.3367735926830326",
  chars! "0.0001588077486819721"], [
  chars! "271954.11778712604",
  chars! "271954.1178648865",
  chars! "271954.1178753976",
  chars! "271954.1178626985",
  chars! "271954.11789978674",
  chars! "94472.51054187793",
  chars! "94472.45588721693",
  chars! "94472.43048582444",
  chars! "94472.35280745685",
  chars! "15354.265256082179",
  chars! "8007.59206268337",
  chars! "6591.717283327859",
  chars! "3929.4925947287275",
  chars! "2469.810379322816",
  chars! "1449.7511791122176",
  chars! "851.5404505258064",
  chars! "256.2790629565242",
  chars! "153.52467446416594",
  chars! "118.34666095325072",
  chars! "30.11687531792598",
  chars! "21.259168300403623",
  chars! "22.875980327097935",
  chars! "22.3952766899364",
  chars! "0.03756123676020689",
  chars! "0.061047856185621405",
  chars! "0.10694677925877602",
  chars! "0.05985353096526867",
  chars! "0.024077168921295477",
  chars! "0.7703870612039216",
  chars! "0.10110188626993444",
  chars! "113219.82574208805",
  chars! "30582.22100509805",
  chars! "30577.84056788993",
  chars! "10582.024135150448",
  chars! "5373.294649203695",
  chars! "3171.493869638171",
  chars! "1548.3746753791663",
  chars! "519.5478047136743",
  chars! "314.2684198769113",
  chars! "176.8858374060704",
  chars! "116.09330424924826",
  chars! "36.902914756714985",
  chars! "20.960184097323356",
  chars! "20.97931792202719",
  chars! "21.007396613975864",
  chars! "3.4689330067205963",
  chars! "3.470394102019824",
  chars! "1.8119987556958181",
  chars! "0.8735850675922672",
  chars! "0.22141031875112285",
  chars! "0.40238408946129967",
  chars! "4.108890408330628"]⟩

theorem fits_in_ok : fitsOk neutral_in fpi_in slsqp_in = true := by decide +kernel

/-- `sn` in `data/kl_fpi_results.json`. -/
noncomputable def fpi_sn : JEntry := ⟨chars! "sn", chars! "30", chars! "22", [
  chars! "3.587252455877656e-07",
  chars! "1.6589778677524596e-06",
  chars! "4.359382890059669e-06",
  chars! "3.1408206766451347e-06",
  chars! "5.938899318690783e-05",
  chars! "0.00042887944803469665",
  chars! "0.0017069466035865657",
  chars! "0.0045722702140502045",
  chars! "0.008052662940177346",
  chars! "0.00935125125387525",
  chars! "0.018980843306906647",
  chars! "0.05371088338824794",
  chars! "0.10526469077189411",
  chars! "0.17739153232998833",
  chars! "0.24398989982638208",
  chars! "0.2840008632098864",
  chars! "0.48783874555750917",
  chars! "0.883046184806357",
  chars! "1.1179058875689987",
  chars! "0.9694663851191865",
  chars! "2.148440581171537",
  chars! "2.6215842638012044",
  chars! "2.0365100328287067",
  chars! "1.1053304039315668",
  chars! "1.8076708138302189",
  chars! "1.8481452482157552",
  chars! "1.3655855429219101",
  chars! "1.1419666498541825",
  chars! "0.9973542237613892",
  chars! "0.7551006674580354",
  chars! "0.009928198097061787",
  chars! "0.050195752533827326",
  chars! "0.029297988156015694",
  chars! "0.12158012688519164",
  chars! "0.16812101939241894",
  chars! "0.26495277603078893",
  chars! "0.30935769807484165",
  chars! "0.3301472279044758",
  chars! "0.8320247210316052",
  chars! "1.4491243133780538",
  chars! "1.3474677576083782",
  chars! "2.0248969500876286",
  chars! "4.0406401146242095",
  chars! "3.7417602507616152",
  chars! "0.9930857651234285",
  chars! "4.417591550824763",
  chars! "4.6666012438892075",
  chars! "2.4576909388479846",
  chars! "0.8549905407483157",
  chars! "1.0165945133438379",
  chars! "0.6592648909052194",
  chars! "0.021220400628501526"], [
  chars! "2286467.2486287495",
  chars! "2286467.248628749",
  chars! "2286467.248628741",
  chars! "2286467.248628741",
  chars! "71857.42449889822",
  chars! "71857.4244988976",
  chars! "71857.42449889718",
  chars! "71857.42449889678",
  chars! "71857.42449889303",
  chars! "22543.589842226163",
  chars! "12109.25022094904",
  chars! "6996.387717142135",
  chars! "4120.757479101378",
  chars! "2535.7672948618847",
  chars! "1482.4703666419305",
  chars! "820.6105892237597",
  chars! "264.6514194877638",
  chars! "158.0653890438385",
  chars! "142.34067231861977",
  chars! "31.296994592755258",
  chars! "21.106241658010905",
  chars! "20.754638269281067",
  chars! "20.413833696427602",
  chars! "1.3981473518866165",
  chars! "1.2960171503283444",
  chars! "1.222075231940951",
  chars! "1.0732478232725278",
  chars! "0.37024630687533544",
  chars! "0.20642171185172586",
  chars! "0.09759779143985575",
  chars! "31424.83043397753",
  chars! "31424.809026368774",
  chars! "12949.696171865844",
  chars! "10178.161692622993",
  chars! "5358.488755450497",
  chars! "3212.4339369430777",
  chars! "1619.3204523548616",
  chars! "528.6387827368359",
  chars! "328.0355955847522",
  chars! "183.5675084507034",
  chars! "172.15769658851883",
  chars! "26.58195773661757",
  chars! "23.09927824274891",
  chars! "22.77326449018851",
  chars! "3.5374391979719624",
  chars! "3.5278166281855907",
  chars! "3.519629568145596",
  chars! "1.9221025582656839",
  chars! "0.6598041145660594",
  chars! "0.3390120973984325",
  chars! "0.19287963086154494",
  chars! "0.06319910059543092"]⟩

/-- `sn` in `data/kl_slsqp_results.json`. -/
noncomputable def slsqp_sn : JEntry := ⟨chars! "sn", chars! "30", chars! "22", [
  chars! "2.2271987331757405e-05",
  chars! "1.11831577407097e-11",
  chars! "1.5356285807778077e-11",
  chars! "1.2606330021368445e-11",
  chars! "0.0030098052595241525",
  chars! "0.0028204993011954112",
  chars! "0.0003499934206759798",
  chars! "1.336335010797416e-05",
  chars! "5.352057140318097e-07",
  chars! "0.028307300239629157",
  chars! "0.005472428371160445",
  chars! "0.17665124953779673",
  chars! "1e-12",
  chars! "0.43799236713131867",
  chars! "0.6059416010263056",
  chars! "0.375797372494099",
  chars! "1.0000309737016068e-12",
  chars! "4.633664064797171",
  chars! "1e-12",
  chars! "1e-12",
  chars! "1.0003748079629271e-12",
  chars! "1.0013914835286924e-12",
  chars! "1e-12",
  chars! "7.91964380583378e-07",
  chars! "1.0000426478298228e-12",
  chars! "1e-12",
  chars! "1e-12",
  chars! "0.006722602168480956",
  chars! "0.1996243781264446",
  chars! "1e-12",
  chars! "0.0011078236877163131",
  chars! "0.010316739850336055",
  chars! "0.036401627274808494",
  chars! "1e-12",
  chars! "0.10286676510128963",
  chars! "1.0357681343123713e-12",
  chars! "1e-12",
  chars! "1.0001586802774914e-12",
  chars! "0.6708383481852895",
  chars! "0.6032041214254977",
  chars! "1.9874097264926591",
  chars! "4.391573385661647",
  chars! "6.240551794853639",
  chars! "5.945123960301369",
  chars! "0.6621202307569998",
  chars! "5.05185070604975",
  chars! "5.375665118655131",
  chars! "6.755541028511578",
  chars! "1.9234927965172817",
  chars! "1.9424300160396344",
  chars! "1.3732938346821948",
  chars! "0.44983141923519626"], [
  chars! "2286467.248618081",
  chars! "2286467.248620417",
  chars! "2286467.24869811",
  chars! "2286467.2486183527",
  chars! "71857.41213335145",
  chars! "71857.41033904135",
  chars! "71857.39624118255",
  chars! "71857.4281654289",
  chars! "71857.43232781302",
  chars! "22543.59211086979",
  chars! "12109.226922368602",
  chars! "6996.580447266854",
  chars! "4120.758688484395",
  chars! "2534.791269955947",
  chars! "1482.2022751801192",
  chars! "820.4349877741026",
  chars! "264.6244398548468",
  chars! "157.79457029083818",
  chars! "141.006328720815",
  chars! "32.81235086039256",
  chars! "21.840624206527007",
  chars! "23.19215462012533",
  chars! "23.133836873080373",
  chars! "1.0000061739468802e-12",
  chars! "0.2748810931276065",
  chars! "0.20996367581358347",
  chars! "1.4427408571729115",
  chars! "0.043057815451717656",
  chars! "0.07221693632779795",
  chars! "0.35774829636926425",
  chars! "31424.816422170243",
  chars! "31424.840469399704",
  chars! "12949.681877507503",
  chars! "10178.160453086926",
  chars! "5358.49990577855",
  chars! "3212.4184461688387",
  chars! "1619.3285631205645",
  chars! "528.7792162518782",
  chars! "326.45174567957633",
  chars! "183.4005555760605",
  chars! "128.84754175346197",
  chars! "40.82705978627355",
  chars! "22.756654431829038",
  chars! "22.835895328309594",
  chars! "3.685951892393642",
  chars! "3.685516185138985",
  chars! "3.6838270287618746",
  chars! "1.9127907872689047",
  chars! "0.8573484095610018",
  chars! "0.40826906618992875",
  chars! "0.22993189605191053",
  chars! "0.13755004545135027"]⟩

theorem fits_sn_ok : fitsOk neutral_sn fpi_sn slsqp_sn = true := by decide +kernel

/-- `sb` in `data/kl_fpi_results.json`. -/
noncomputable def fpi_sb : JEntry := ⟨chars! "sb", chars! "30", chars! "22", [
  chars! "6.25800801518288e-08",
  chars! "4.975911782152077e-07",
  chars! "1.828510921667531e-06",
  chars! "4.012633845410244e-06",
  chars! "3.2850972136617643e-07",
  chars! "6.636697318914588e-05",
  chars! "0.0004547590230664982",
  chars! "0.001770319409569757",
  chars! "0.004653802517576363",
  chars! "0.007673569161516431",
  chars! "0.008542069246078341",
  chars! "0.020753785904743687",
  chars! "0.054538147702756556",
  chars! "0.10927617242021855",
  chars! "0.17923646003751537",
  chars! "0.24573067423302603",
  chars! "0.2851731257415921",
  chars! "0.510567124990467",
  chars! "0.8992112160733351",
  chars! "1.1082378068367302",
  chars! "1.0191419706286375",
  chars! "2.1268823119687164",
  chars! "2.501197296576821",
  chars! "1.8000675010161746",
  chars! "1.1971706120783863",
  chars! "1.7437738574873007",
  chars! "1.7053102277519057",
  chars! "1.2158402070254501",
  chars! "1.3337666966712884",
  chars! "1.1673303256614995",
  chars! "0.013750291227937365",
  chars! "0.04807173559606987",
  chars! "0.04281285531234772",
  chars! "0.11516433350191899",
  chars! "0.18145861196706242",
  chars! "0.2594665931038782",
  chars! "0.3110724119728962",
  chars! "0.3647038608155104",
  chars! "0.8597890120473984",
  chars! "1.4391967099857024",
  chars! "1.2533859273851429",
  chars! "2.299210778794764",
  chars! "4.162893838805749",
  chars! "3.617484309750315",
  chars! "1.7344680323930208",
  chars! "4.632428787341373",
  chars! "4.530482420096533",
  chars! "2.347777146649384",
  chars! "1.354922998211401",
  chars! "1.305473374943833",
  chars! "0.8028469818178435",
  chars! "0.07676585116158614"], [
  chars! "2983311.215071223",
  chars! "2983311.215071223",
  chars! "2983311.215071223",
  chars! "2983311.215071223",
  chars! "78017.79087086524",
  chars! "78017.7908708648",
  chars! "78017.7908708648",
  chars! "78017.7908708648",
  chars! "78017.7908708648",
  chars! "78017.7908708648",
  chars! "22405.01911908818",
  chars! "11085.035715347662",
  chars! "6941.116765137229",
  chars! "4138.521095130808",
  chars! "2583.308752061305",
  chars! "1494.7682411272128",
  chars! "772.176739836264",
  chars! "264.91572537585665",
  chars! "164.5523975918215",
  chars! "144.53945822060382",
  chars! "32.11521265465997",
  chars! "22.730651009460768",
  chars! "22.575895057603564",
  chars! "22.369434372190952",
  chars! "1.486145331136961",
  chars! "1.443134891919762",
  chars! "1.3841172275380105",
  chars! "0.8378758266891085",
  chars! "0.31488223781495106",
  chars! "0.21284456277809258",
  chars! "33949.52626380657",
  chars! "33949.506956596524",
  chars! "12624.28192663919",
  chars! "10644.031836035834",
  chars! "5358.219577995298",
  chars! "3261.6914014862446",
  chars! "1671.231150596138",
  chars! "530.1496544493189",
  chars! "326.66337558799916",
  chars! "192.4682468805632",
  chars! "176.05832155992456",
  chars! "25.305299737467923",
  chars! "25.13212914984351",
  chars! "25.081545339940366",
  chars! "3.7790180439947965",
  chars! "3.766205114925254",
  chars! "3.753118375312711",
  chars! "2.0544031329623467",
  chars! "0.5751160011128009",
  chars! "0.3204518740614071",
  chars! "0.1720463251034085",
  chars! "0.09328582975996123"]⟩

/-- `sb` in `data/kl_slsqp_results.json`. -/
noncomputable def slsqp_sb : JEntry := ⟨chars! "sb", chars! "30", chars! "22", [
  chars! "2.522306830632881e-06",
  chars! "1.2743155720186164e-05",
  chars! "1.3952621033471766e-06",
  chars! "1.0727933665832687e-09",
  chars! "0.002569000974758442",
  chars! "0.0026389959217581415",
  chars! "2.3623145223180183e-07",
  chars! "0.00021621425547348978",
  chars! "1.367059806233386e-05",
  chars! "4.9559923658618324e-05",
  chars! "0.02705274826389237",
  chars! "0.027062803275564148",
  chars! "0.1869093927108827",
  chars! "1.0007940154652397e-12",
  chars! "0.44889295094590187",
  chars! "0.6294585551061262",
  chars! "0.372495238134985",
  chars! "1.0018402052705412e-12",
  chars! "4.435601088335465",
  chars! "7.48069321967086e-09",
  chars! "1.0000660658246755e-12",
  chars! "1.0010531362631457e-12",
  chars! "1.0001112203535853e-12",
  chars! "1.0000001995237187e-12",
  chars! "0.05847603872825178",
  chars! "1.0000077608164845e-12",
  chars! "3.6565838136153198e-06",
  chars! "0.00041373809973110063",
  chars! "0.8584234772136017",
  chars! "1.0000004747281105e-12",
  chars! "2.690901750927591e-05",
  chars! "0.008034659654510955",
  chars! "0.025984715989900233",
  chars! "1e-12",
  chars! "0.10025311717205333",
  chars! "1.0016705449741512e-12",
  chars! "1.0001957240491245e-12",
  chars! "1.000000432953651e-12",
  chars! "0.8559472567078387",
  chars! "0.1773918810620781",
  chars! "2.3087767520463403",
  chars! "3.8530920529975017",
  chars! "6.859371555810454",
  chars! "5.872401575660607",
  chars! "1.6647972322852493",
  chars! "5.179448135112824",
  chars! "5.056729336534058",
  chars! "6.34725312546925",
  chars! "1.9316061868121035",
  chars! "2.4594467456615883",
  chars! "1.2491716033842788",
  chars! "1.6919536651781692e-06"], [
  chars! "2983311.2150696423",
  chars! "2983311.215069865",
  chars! "2983311.2150696414",
  chars! "2983311.2150696213",
  chars! "78017.79228866266",
  chars! "78017.78714366167",
  chars! "78017.79123725911",
  chars! "78017.79177177142",
  chars! "78017.79070241944",
  chars! "78017.7918351908",
  chars! "22405.023058589835",
  chars! "11085.029258894432",
  chars! "6941.126113272217",
  chars! "4138.5219299187975",
  chars! "2583.2974897205277",
  chars! "1494.9253325830373",
  chars! "772.0877963367461",
  chars! "265.41536495281514",
  chars! "164.2695654177352",
  chars! "144.11524869121254",
  chars! "38.56778707737229",
  chars! "22.374945991699743",
  chars! "23.580511914242063",
  chars! "22.07794095946087",
  chars! "0.0708810038756493",
  chars! "0.08848884136904356",
  chars! "1.0000329483154546e-12",
  chars! "0.0407926752274572",
  chars! "0.11973824054342691",
  chars! "0.5775877534017648",
  chars! "33949.52827025449",
  chars! "33949.50435467935",
  chars! "12624.27744542084",
  chars! "10644.031489309886",
  chars! "5358.223607374606",
  chars! "3261.6778471415896",
  chars! "1671.2196902114063",
  chars! "529.8853458858408",
  chars! "329.19613361246405",
  chars! "190.86013191349198",
  chars! "144.03189390142606",
  chars! "45.33192328536503",
  chars! "24.66115159986393",
  chars! "24.721488661907824",
  chars! "3.9125156787949615",
  chars! "3.912301360411175",
  chars! "3.9114525386185104",
  chars! "2.0249699985710823",
  chars! "0.8084689281645262",
  chars! "0.412281226075993",
  chars! "0.23768278376541943",
  chars! "1.1458499273047873"]⟩

theorem fits_sb_ok : fitsOk neutral_sb fpi_sb slsqp_sb = true := by decide +kernel

/-- `te` in `data/kl_fpi_results.json`. -/
noncomputable def fpi_te : JEntry := ⟨chars! "te", chars! "30", chars! "23", [
  chars! "2.0067126839946105e-08",
  chars! "2.1465806083423844e-08",
  chars! "3.1160829355899545e-07",
  chars! "1.4215562678332493e-05",
  chars! "0.0001041325177423916",
  chars! "0.00046165326655197626",
  chars! "0.0013271928750984284",
  chars! "0.0005515349912947637",
  chars! "0.00138883818596511",
  chars! "0.0015001776144683717",
  chars! "0.005121112501541016",
  chars! "0.01868821097913734",
  chars! "0.051914935633539154",
  chars! "0.10922987745560864",
  chars! "0.17972070152334862",
  chars! "0.24656631020869235",
  chars! "0.28961488701105337",
  chars! "0.5401862972526147",
  chars! "0.923920936746471",
  chars! "1.1069864506854064",
  chars! "1.1191253725377444",
  chars! "2.1451558757275513",
  chars! "2.4277521698629028",
  chars! "1.5565871676216532",
  chars! "1.2693307670682892",
  chars! "1.6625044225554664",
  chars! "1.5202782125309517",
  chars! "1.2794950672500098",
  chars! "1.4308604607206765",
  chars! "1.201185427560275",
  chars! "0.011181790580001374",
  chars! "0.018213434488813535",
  chars! "0.05550845666071162",
  chars! "0.049353677113378354",
  chars! "0.12133814131927956",
  chars! "0.19191555482041586",
  chars! "0.2610086783222084",
  chars! "0.31151619072854564",
  chars! "0.40047839702710497",
  chars! "0.9090272785525408",
  chars! "1.4377949732020268",
  chars! "1.1547287221398617",
  chars! "2.5552351372031",
  chars! "4.2175336248975785",
  chars! "3.416686951355332",
  chars! "2.3587897232770594",
  chars! "4.9908225139274665",
  chars! "4.522765135304771",
  chars! "2.0547475051449613",
  chars! "1.6091961663973438",
  chars! "1.3976512774619514",
  chars! "0.7893296367951891",
  chars! "0.07560427156317312"], [
  chars! "44465382.041010715",
  chars! "44465381.77948795",
  chars! "311024.295849743",
  chars! "311024.29584967083",
  chars! "311024.295849662",
  chars! "311024.29584965593",
  chars! "311024.29584963486",
  chars! "118088.85536781028",
  chars! "118088.82610498497",
  chars! "14434.351847070951",
  chars! "13472.527820309633",
  chars! "8831.099413548207",
  chars! "6232.593231801417",
  chars! "4012.5838725681856",
  chars! "2568.4268674462874",
  chars! "1502.4858858976038",
  chars! "713.825097392149",
  chars! "264.04742093599543",
  chars! "171.9086383657255",
  chars! "144.272569354701",
  chars! "27.254444304572242",
  chars! "24.625597683405303",
  chars! "24.53301092691853",
  chars! "24.357318782166523",
  chars! "1.524985175827321",
  chars! "1.5040609379822507",
  chars! "1.4651020098680185",
  chars! "0.5523360596248224",
  chars! "0.30822703068772406",
  chars! "0.22597656832325247",
  chars! "138830.0577538871",
  chars! "36059.31602893555",
  chars! "36059.31449214081",
  chars! "13019.621774256751",
  chars! "11160.148492661006",
  chars! "5474.057687485466",
  chars! "3304.668509117004",
  chars! "1705.4906738515322",
  chars! "529.8536053169403",
  chars! "323.01773725180163",
  chars! "202.6790029717004",
  chars! "175.13771395074474",
  chars! "26.7739935163776",
  chars! "26.75762186381612",
  chars! "26.750344876066396",
  chars! "4.021036984830528",
  chars! "4.009436085893751",
  chars! "3.9980640607811653",
  chars! "2.167752614023697",
  chars! "0.5950594154232607",
  chars! "0.3403523841018179",
  chars! "0.18357171117912022",
  chars! "0.10077242692393738"]⟩

/-- `te` in `data/kl_slsqp_results.json`. -/
noncomputable def slsqp_te : JEntry := ⟨chars! "te", chars! "30", chars! "23", [
  chars! "9.937998551685427e-08",
  chars! "4.844913347850602e-08",
  chars! "0.0009376273974560531",
  chars! "6.867502727785418e-06",
  chars! "0.0001778783578265849",
  chars! "3.689539290985158e-05",
  chars! "1.7204463813039737e-12",
  chars! "1.0000012486086597e-12",
  chars! "1.0000007387885384e-12",
  chars! "0.04583105898795025",
  chars! "1e-12",
  chars! "1.0000016398946428e-12",
  chars! "0.2960500655784234",
  chars! "1.0010139432221625e-12",
  chars! "0.3863590655215525",
  chars! "0.5831591833315591",
  chars! "0.6689355796190051",
  chars! "1.0157729610829878e-12",
  chars! "1.9865455709508684",
  chars! "0.30317961372728985",
  chars! "1.0005946460334256e-12",
  chars! "1.0002029133289212e-12",
  chars! "1.0003772131387097e-12",
  chars! "1.0003373095103013e-12",
  chars! "1.0001924854515367e-12",
  chars! "0.30022409159207364",
  chars! "4.677571640606844e-05",
  chars! "0.00019891816297450818",
  chars! "0.4326106147238471",
  chars! "1.0000373725248702e-12",
  chars! "0.005618530721801436",
  chars! "0.0001716939141470435",
  chars! "0.01454637018242316",
  chars! "1.0000069232559096e-12",
  chars! "1.000039108000921e-12",
  chars! "0.06600373804632112",
  chars! "0.07658486444369018",
  chars! "1.000000557535915e-12",
  chars! "0.24775981730693394",
  chars! "1.72457804057954",
  chars! "1.000210996937581e-12",
  chars! "3.1234158626995465",
  chars! "3.37107605160224",
  chars! "9.153683941042079",
  chars! "4.075578748999402",
  chars! "2.6202902510253905",
  chars! "5.268417658764871",
  chars! "4.798771619414163",
  chars! "5.7910232938210795",
  chars! "2.460491301299468",
  chars! "2.9232111225724173",
  chars! "1.2612590851856966",
  chars! "0.013228518869432755"], [
  chars! "44465382.041010715",
  chars! "44465381.77948795",
  chars! "311024.2959869704",
  chars! "311024.29605122603",
  chars! "311024.2959530207",
  chars! "311024.29579983343",
  chars! "311024.2958820812",
  chars! "118088.85536782756",
  chars! "118088.8261050294",
  chars! "14434.379218647886",
  chars! "13472.527840901643",
  chars! "8831.099372042083",
  chars! "6232.578553006924",
  chars! "4012.5819811678757",
  chars! "2568.390455461189",
  chars! "1502.5079766860256",
  chars! "713.8641540765927",
  chars! "265.2478831017284",
  chars! "171.9088825857092",
  chars! "144.0549017865795",
  chars! "26.92027820214183",
  chars! "25.686243108129034",
  chars! "26.0914102223974",
  chars! "24.96751696275016",
  chars! "0.19140276895515212",
  chars! "0.12058884827014849",
  chars! "7.19837156959718",
  chars! "0.041320622433678775",
  chars! "0.12071435751660933",
  chars! "0.2982811174412832",
  chars! "138830.04809167207",
  chars! "36059.33471611809",
  chars! "36059.34165333766",
  chars! "13019.621760550204",
  chars! "11160.147351225038",
  chars! "5474.065398409019",
  chars! "3304.7189579960623",
  chars! "1705.2822080648566",
  chars! "528.8689326529932",
  chars! "326.20927798929887",
  chars! "197.00057741447085",
  chars! "163.55741652218904",
  chars! "50.58644186054791",
  chars! "26.65413497428325",
  chars! "26.646783193660166",
  chars! "4.154996591053529",
  chars! "4.1523571923512925",
  chars! "4.1553349644987225",
  chars! "2.150744691392207",
  chars! "0.776939645078717",
  chars! "0.4190528287360869",
  chars! "0.24225765598854204",
  chars! "0.08073405466292109"]⟩

theorem fits_te_ok : fitsOk neutral_te fpi_te slsqp_te = true := by decide +kernel

/-- `i` in `data/kl_fpi_results.json`. -/
noncomputable def fpi_i : JEntry := ⟨chars! "i", chars! "30", chars! "22", [
  chars! "2.42100095497054e-08",
  chars! "2.7580039791029897e-08",
  chars! "2.9502490001679237e-07",
  chars! "1.4985883500789668e-05",
  chars! "0.00011010030709793682",
  chars! "0.0004883454945608334",
  chars! "0.0014047475950875459",
  chars! "0.0005898409991615029",
  chars! "0.001481223114125329",
  chars! "0.001613256844602327",
  chars! "0.005466773905086182",
  chars! "0.019688867750687143",
  chars! "0.05419450086527339",
  chars! "0.11280770714016004",
  chars! "0.1836094892959125",
  chars! "0.24853486569282576",
  chars! "0.29815722130608",
  chars! "0.5701019778892841",
  chars! "0.9500737315135316",
  chars! "1.1031218578847028",
  chars! "1.1974884478313454",
  chars! "2.1158936594719266",
  chars! "2.3065474663243",
  chars! "1.2087423036990763",
  chars! "1.3185288781019688",
  chars! "1.584598276381713",
  chars! "1.3328294746493068",
  chars! "1.6181678294138897",
  chars! "1.7075704802205298",
  chars! "1.523758567919633",
  chars! "0.011776647409186191",
  chars! "0.01914496412037671",
  chars! "0.05788953363389365",
  chars! "0.05160791220112885",
  chars! "0.12512187784461123",
  chars! "0.19713214123266312",
  chars! "0.2644228899785482",
  chars! "0.30911738177904813",
  chars! "0.4350795747761242",
  chars! "0.9589322836020666",
  chars! "1.4475318067565215",
  chars! "1.0498726338460767",
  chars! "2.8724324214734303",
  chars! "4.363526687358346",
  chars! "3.268639314954445",
  chars! "2.9665261105783776",
  chars! "5.36830259972497",
  chars! "4.518630611342285",
  chars! "1.4251827607822347",
  chars! "2.3473589898342424",
  chars! "1.430246642435417",
  chars! "0.045938990012043546"], [
  chars! "41084848.180856116",
  chars! "41084848.02659562",
  chars! "311542.5927306067",
  chars! "311542.5927305105",
  chars! "311542.5927304999",
  chars! "311542.59273049183",
  chars! "311542.5927304664",
  chars! "118351.95526890918",
  chars! "118351.92186434106",
  chars! "14614.425453852598",
  chars! "13633.538467698438",
  chars! "8931.042737657226",
  chars! "6258.919337539635",
  chars! "4056.728191234049",
  chars! "2593.080467760769",
  chars! "1524.5181557152068",
  chars! "658.7942966383338",
  chars! "263.6542983137992",
  chars! "179.56861330029002",
  chars! "145.27817034188277",
  chars! "26.79677342843844",
  chars! "26.42346407608972",
  chars! "26.379685710665516",
  chars! "26.23631807920572",
  chars! "1.5634709809938407",
  chars! "1.5483028989724044",
  chars! "1.5145287231918139",
  chars! "0.45476110605654396",
  chars! "0.32827401706449766",
  chars! "0.1611148033872113",
  chars! "139149.68346648675",
  chars! "36260.61648019477",
  chars! "36260.61466450147",
  chars! "13167.2303461316",
  chars! "11217.074054120265",
  chars! "5526.7059862172655",
  chars! "3322.0410954452996",
  chars! "1724.6221523293264",
  chars! "532.519838722638",
  chars! "318.0880948723797",
  chars! "212.8951748490762",
  chars! "172.51015204468078",
  chars! "28.588803217270616",
  chars! "28.586852274576078",
  chars! "28.58560884228182",
  chars! "4.268650128767314",
  chars! "4.2565056107043295",
  chars! "4.244118624880197",
  chars! "2.2778718453812843",
  chars! "0.62779785359439",
  chars! "0.3223682372385959",
  chars! "0.10621503640587025"]⟩

/-- `i` in `data/kl_slsqp_results.json`. -/
noncomputable def slsqp_i : JEntry := ⟨chars! "i", chars! "30", chars! "22", [
  chars! "2.1670512575440355e-08",
  chars! "1.5224663293671586e-07",
  chars! "0.00125470283151245",
  chars! "1e-12",
  chars! "1e-12",
  chars! "1.0016340458500007e-12",
  chars! "1e-12",
  chars! "1.000002093056001e-12",
  chars! "1.0000010321223692e-12",
  chars! "0.04569410313354313",
  chars! "1e-12",
  chars! "1.0000209683944943e-12",
  chars! "0.39642901129590347",
  chars! "0.20402502514340695",
  chars! "1e-12",
  chars! "1e-12",
  chars! "1.0000399661744427e-12",
  chars! "2.503701457223082",
  chars! "1.000368682185641e-12",
  chars! "1e-12",
  chars! "1e-12",
  chars! "5.191784644840089",
  chars! "0.12237249146150993",
  chars! "1e-12",
  chars! "1e-12",
  chars! "2.4655380575802854",
  chars! "1e-12",
  chars! "1e-12",
  chars! "0.028658508982050915",
  chars! "0.31011488789208536",
  chars! "0.0060679937665219915",
  chars! "0.016142467281537638",
  chars! "1e-12",
  chars! "1e-12",
  chars! "1e-12",
  chars! "0.10765360633437872",
  chars! "0.46702638776362393",
  chars! "0.45738848828506395",
  chars! "0.24999284678628883",
  chars! "0.4780776150927031",
  chars! "3.3834322485867423",
  chars! "1.0002566400414887e-12",
  chars! "3.550806809648662",
  chars! "5.283574919146175",
  chars! "3.597583630871551",
  chars! "3.159736575491415",
  chars! "5.553509744898141",
  chars! "4.742347771256312",
  chars! "5.014074316075917",
  chars! "3.0836447994419043",
  chars! "2.5773318076563263",
  chars! "0.002035487076102477"], [
  chars! "41084848.180856116",
  chars! "41084848.02659562",
  chars! "311542.5947878411",
  chars! "311542.59314627096",
  chars! "311542.59252264403",
  chars! "311542.59333357477",
  chars! "311542.5931113721",
  chars! "118351.95526894994",
  chars! "118351.92186435859",
  chars! "14614.446238391769",
  chars! "13633.538489296061",
  chars! "8931.042714100835",
  chars! "6259.596028701359",
  chars! "4056.6427359854097",
  chars! "2593.08188825815",
  chars! "1524.5171043776518",
  chars! "658.8503479541254",
  chars! "261.87430866921454",
  chars! "178.6993075382929",
  chars! "145.70438466901774",
  chars! "29.472250138149366",
  chars! "33.452038988559906",
  chars! "31.608333345235813",
  chars! "30.709339134004914",
  chars! "0.7945763702917498",
  chars! "0.19505611753405275",
  chars! "1.170280864767801",
  chars! "0.35587337258058316",
  chars! "0.19480575683281295",
  chars! "0.11126052936005057",
  chars! "139149.68608343706",
  chars! "36260.78539981942",
  chars! "36260.712751678824",
  chars! "13167.230321118634",
  chars! "11217.072574663061",
  chars! "5526.729541297196",
  chars! "3321.622708751522",
  chars! "1723.5559822736766",
  chars! "528.4233275515783",
  chars! "324.9566877236885",
  chars! "197.87467919014676",
  chars! "187.60047254448392",
  chars! "28.161990492309148",
  chars! "28.24720402042295",
  chars! "28.437843932606935",
  chars! "4.402444575632016",
  chars! "4.403627691142215",
  chars! "4.404922797304123",
  chars! "2.282233936866766",
  chars! "0.7614392579386778",
  chars! "0.41925703877183257",
  chars! "0.07376386644601596"]⟩

theorem fits_i_ok : fitsOk neutral_i fpi_i slsqp_i = true := by decide +kernel

/-- `xe` in `data/kl_fpi_results.json`. -/
noncomputable def fpi_xe : JEntry := ⟨chars! "xe", chars! "31", chars! "22", [
  chars! "9.294454123676054e-09",
  chars! "2.1160943060682948e-08",
  chars! "3.213793739939782e-08",
  chars! "3.200213363031996e-07",
  chars! "1.581045085399958e-05",
  chars! "0.0001153508187523734",
  chars! "0.000509274429454645",
  chars! "0.001456210881906077",
  chars! "0.0006283647033172492",
  chars! "0.0015647095249687233",
  chars! "0.0017530990847881428",
  chars! "0.005877994342853107",
  chars! "0.020881972921850307",
  chars! "0.05665666560630572",
  chars! "0.11658559002065216",
  chars! "0.18767449404140835",
  chars! "0.24993849443085764",
  chars! "0.31077136378250947",
  chars! "0.6052271068879086",
  chars! "0.9862881185850928",
  chars! "1.1067141791200663",
  chars! "1.260510096084733",
  chars! "2.0885600500091086",
  chars! "2.195737825989925",
  chars! "0.5757271459052447",
  chars! "1.6279020857601445",
  chars! "1.8695784463032228",
  chars! "1.5372422764323277",
  chars! "1.6320108375416762",
  chars! "1.6366197228828432",
  chars! "1.4373418014881982",
  chars! "0.01220438381753926",
  chars! "0.01997376451440085",
  chars! "0.05948434367650742",
  chars! "0.05429902712658163",
  chars! "0.12816630806338322",
  chars! "0.20242534754398395",
  chars! "0.2680247356746316",
  chars! "0.30475990527937263",
  chars! "0.4720223334119621",
  chars! "1.022791971131992",
  chars! "1.4809166770294915",
  chars! "0.9402768799181467",
  chars! "3.2490296546853545",
  chars! "4.591039984981436",
  chars! "3.1522932481706336",
  chars! "3.5535082038407375",
  chars! "5.674451993122085",
  chars! "4.419888825729217",
  chars! "1.2194163233890039",
  chars! "2.2389006479475575",
  chars! "1.3716984655167206",
  chars! "0.050537504750440373"], [
  chars! "38546620.77710993",
  chars! "38546620.65958821",
  chars! "38546620.58398702",
  chars! "314774.17902844783",
  chars! "314774.1790283163",
  chars! "314774.1790283021",
  chars! "314774.179028292",
  chars! "314774.1790282572",
  chars! "119526.02687577366",
  chars! "119525.98605247759",
  chars! "14943.029003892503",
  chars! "13895.653357883159",
  chars! "9092.759937934354",
  chars! "6307.354259863487",
  chars! "4103.989763320828",
  chars! "2621.0386117652242",
  chars! "1548.5534996836966",
  chars! "611.4156371053774",
  chars! "262.24763210268674",
  chars! "187.26499502673698",
  chars! "146.49169469172145",
  chars! "28.275055490743014",
  chars! "28.193929461013926",
  chars! "28.175929266267584",
  chars! "27.975948850072108",
  chars! "1.5903484812076214",
  chars! "1.5833621751956677",
  chars! "1.562959959633731",
  chars! "0.47630921806992244",
  chars! "0.3275886569967532",
  chars! "0.17870536582819077",
  chars! "140591.61542264294",
  chars! "36726.88045790917",
  chars! "36726.877752527085",
  chars! "13425.518485479359",
  chars! "11282.479797066619",
  chars! "5578.068023188466",
  chars! "3334.4380852227278",
  chars! "1734.2070451140087",
  chars! "537.1066557602439",
  chars! "310.5590999155341",
  chars! "223.49991854725263",
  chars! "163.13327116686864",
  chars! "30.632325221874446",
  chars! "30.632136855476126",
  chars! "30.63196959239448",
  chars! "4.504495639074575",
  chars! "4.489198661566761",
  chars! "4.469360170833627",
  chars! "0.7409042387604747",
  chars! "0.6215222667260879",
  chars! "0.33885019478523387",
  chars! "0.12179913969047686"]⟩

/-- `xe` in `data/kl_slsqp_results.json`. -/
noncomputable def slsqp_xe : JEntry := ⟨chars! "xe", chars! "31", chars! "22", [
  chars! "1.9340329640491377e-12",
  chars! "2.022415773596411e-10",
  chars! "2.0269184856721122e-07",
  chars! "2.7119844629619624e-06",
  chars! "1.0172801088068404e-06",
  chars! "8.113579193064843e-07",
  chars! "0.00011785152398903901",
  chars! "0.0011817255989423515",
  chars! "1.0000019270482194e-12",
  chars! "1.0000016318328006e-12",
  chars! "0.049257715882009834",
  chars! "1.0000004555669017e-12",
  chars! "1.0000001392560294e-12",
  chars! "0.40946515348502227",
  chars! "0.20616005811562443",
  chars! "1.0032319317930704e-12",
  chars! "1.0000010950437151e-12",
  chars! "1.0000061794605128e-12",
  chars! "1.2129475288070206e-07",
  chars! "4.370744226438284",
  chars! "1.010736206821276e-12",
  chars! "2.3485688999504784",
  chars! "1.2485475480951431",
  chars! "2.896462200558807",
  chars! "1.0016720541388514e-12",
  chars! "1.0000478283842402e-12",
  chars! "0.4125310815098591",
  chars! "0.009434875681719709",
  chars! "0.00012233961162065227",
  chars! "9.93896090537901e-06",
  chars! "1.7771239313342378e-07",
  chars! "0.006254992332679417",
  chars! "2.780910481641968e-07",
  chars! "0.01611336377411275",
  chars! "1e-12",
  chars! "5.7818148358083406e-08",
  chars! "0.11256037624955544",
  chars! "0.4754085342304284",
  chars! "0.44454118536329784",
  chars! "0.3498719845372139",
  chars! "0.2866322146381916",
  chars! "0.6290205979560336",
  chars! "1.0834235136347072",
  chars! "1.3063516862126763",
  chars! "9.775433683346922",
  chars! "1.0003845058730674e-12",
  chars! "7.90325678238365",
  chars! "6.433766626631156",
  chars! "4.292389291222719",
  chars! "3.6052414416380545",
  chars! "4.204079965108725",
  chars! "1.1231608283247854",
  chars! "8.919050229702863e-08"], [
  chars! "38546620.777109884",
  chars! "38546620.65958821",
  chars! "38546620.583987035",
  chars! "314774.1797039416",
  chars! "314774.17929804005",
  chars! "314774.1797924546",
  chars! "314774.18307526706",
  chars! "314774.4178720683",
  chars! "119526.02687540889",
  chars! "119525.98605227104",
  chars! "14939.853638559127",
  chars! "13895.65343178099",
  chars! "9092.75992531455",
  chars! "6315.8982792307115",
  chars! "4101.513265660251",
  chars! "2621.039205398918",
  chars! "1548.5525505102944",
  chars! "611.4197640536148",
  chars! "266.44809435301005",
  chars! "184.6424628852016",
  chars! "150.72024269940067",
  chars! "29.87334745950622",
  chars! "29.8340364975655",
  chars! "28.448469621079216",
  chars! "26.54450382344079",
  chars! "1.0998271678192428",
  chars! "0.13238341924040534",
  chars! "0.07813964757060538",
  chars! "1.0000000044225005e-12",
  chars! "0.7788066847284779",
  chars! "1.0033999510123858e-12",
  chars! "140590.46283836677",
  chars! "36726.93252797649",
  chars! "36728.02758569286",
  chars! "13425.518493312724",
  chars! "11282.481159029401",
  chars! "5580.16027000126",
  chars! "3332.573854122354",
  chars! "1731.4388389949204",
  chars! "523.0163030327956",
  chars! "317.71485156975734",
  chars! "224.4545411693457",
  chars! "179.58721306803523",
  chars! "30.31730488227524",
  chars! "29.95427271427466",
  chars! "28.224349342753346",
  chars! "4.661552086775983",
  chars! "4.6552983223098305",
  chars! "2.3785352463695126",
  chars! "0.4441212035189241",
  chars! "0.8021090797674133",
  chars! "0.2582307982846097",
  chars! "0.371524208911302"]⟩

theorem fits_xe_ok : fitsOk neutral_xe fpi_xe slsqp_xe = true := by decide +kernel

/-- Part 4 of the results. -/
noncomputable def fits4 : List (DataFile × JEntry × JEntry) := [
  (neutral_tc, fpi_tc, slsqp_tc),
  (neutral_ru, fpi_ru, slsqp_ru),
  (neutral_rh, fpi_rh, slsqp_rh),
  (neutral_pd, fpi_pd, slsqp_pd),
  (neutral_ag, fpi_ag, slsqp_ag),
  (neutral_cd, fpi_cd, slsqp_cd),
  (neutral_in, fpi_in, slsqp_in),
  (neutral_sn, fpi_sn, slsqp_sn),
  (neutral_sb, fpi_sb, slsqp_sb),
  (neutral_te, fpi_te, slsqp_te),
  (neutral_i, fpi_i, slsqp_i),
  (neutral_xe, fpi_xe, slsqp_xe)]

theorem fits4_ok : ∀ p ∈ fits4, fitsOk p.1 p.2.1 p.2.2 = true := by
  intro p hp
  unfold fits4 at hp
  simp only [List.mem_cons, List.not_mem_nil, or_false] at hp
  rcases hp with rfl | rfl | rfl | rfl | rfl | rfl | rfl | rfl | rfl | rfl | rfl | rfl
  · exact fits_tc_ok
  · exact fits_ru_ok
  · exact fits_rh_ok
  · exact fits_pd_ok
  · exact fits_ag_ok
  · exact fits_cd_ok
  · exact fits_in_ok
  · exact fits_sn_ok
  · exact fits_sb_ok
  · exact fits_te_ok
  · exact fits_i_ok
  · exact fits_xe_ok

end BFit.Data
