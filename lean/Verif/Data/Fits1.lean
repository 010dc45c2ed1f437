import Verif.Data.All
import Verif.Lemmas.FitsScan

/-! Copy of /repo/bfit/data/kl_fpi_results.json and kl_slsqp_results.json, generated by tools/gendata.py. -/

namespace BFit.Data

/-- `h` in `data/kl_fpi_results.json`. -/
noncomputable def fpi_h : JEntry := ⟨chars! "h", chars! "20", chars! "0", [
  chars! "9.755680376998416e-09",
  chars! "2.686098936382615e-08",
  chars! "1.233180414261348e-07",
  chars! "4.741406641490994e-07",
  chars! "1.5322119339127971e-06",
  chars! "5.961578427138845e-06",
  chars! "2.337036422252344e-05",
  chars! "7.964767768801529e-05",
  chars! "0.00030200251173498284",
  chars! "0.001022689793924565",
  chars! "0.0034672216579778067",
  chars! "0.01050373011820885",
  chars! "0.02865918703409256",
  chars! "0.06547974410528253",
  chars! "0.125853826928909",
  chars! "0.18631775783364277",
  chars! "0.2204094131576206",
  chars! "0.19452110963282723",
  chars! "0.14588829002209505",
  chars! "0.017463881286310358"], [
  chars! "16616.76293015443",
  chars! "3760.4352436225354",
  chars! "1989.5539150543218",
  chars! "1323.4449277312945",
  chars! "700.1146604836373",
  chars! "290.50531481944245",
  chars! "176.5138354077671",
  chars! "90.50971941167646",
  chars! "44.6494428641957",
  chars! "24.949035626916718",
  chars! "12.860110588961899",
  chars! "6.9290185575333485",
  chars! "3.9900747288720178",
  chars! "2.235366876446615",
  chars! "1.3784263938358912",
  chars! "0.8591473947826095",
  chars! "0.5563235595623377",
  chars! "0.38399340081535027",
  chars! "0.23642288607484643",
  chars! "0.13062534262904696"]⟩

/-- `h` in `data/kl_slsqp_results.json`. -/
noncomputable def slsqp_h : JEntry := ⟨chars! "h", chars! "20", chars! "0", [
  chars! "7.528456525284823e-09",
  chars! "7.599729007655432e-08",
  chars! "1e-12",
  chars! "5.678372124356373e-07",
  chars! "1.0420003917620366e-06",
  chars! "1.2399705128596899e-05",
  chars! "5.65699564820997e-06",
  chars! "0.00011145652998821511",
  chars! "0.00025206087663810507",
  chars! "0.0010528575775644675",
  chars! "0.0035240776511000008",
  chars! "0.010703872433201428",
  chars! "0.026563381052303037",
  chars! "0.07412956314893661",
  chars! "0.11123240324282804",
  chars! "0.21850682484528705",
  chars! "0.30819431320232976",
  chars! "0.19693294907979145",
  chars! "0.046477398189793205",
  chars! "0.0022995823941327383"], [
  chars! "16616.76293015438",
  chars! "3760.4352436221143",
  chars! "1989.5539150536883",
  chars! "1323.4449277296653",
  chars! "700.1146604654556",
  chars! "290.50531488289175",
  chars! "176.51383485024897",
  chars! "90.50971807272096",
  chars! "44.64943440936026",
  chars! "24.949033671446372",
  chars! "12.859712281931879",
  chars! "6.929419880011891",
  chars! "3.985543480641581",
  chars! "2.243685496832185",
  chars! "1.350802942149029",
  chars! "0.8612446574786057",
  chars! "0.4934421181426604",
  chars! "0.28280816844603135",
  chars! "0.167034498268308",
  chars! "0.09914503752003527"]⟩

theorem fits_h_ok : fitsOk neutral_h fpi_h slsqp_h = true := by decide +kernel

/-- `he` in `data/kl_fpi_results.json`. -/
noncomputable def fpi_he : JEntry := ⟨chars! "he", chars! "21", chars! "0", [
  chars! "1.1037368930581307e-08",
  chars! "4.2791302786081475e-08",
  chars! "1.8369294916056958e-07",
  chars! "6.309151206304175e-07",
  chars! "2.0915063205635194e-06",
  chars! "9.776064803472636e-06",
  chars! "3.566180113326278e-05",
  chars! "0.0001159090101136795",
  chars! "0.0004762628517420836",
  chars! "0.0013963048461911691",
  chars! "0.005184160688119381",
  chars! "0.015389328692300275",
  chars! "0.041095879129832244",
  chars! "0.0968602446909245",
  chars! "0.18748192579256034",
  chars! "0.30303492420623424",
  chars! "0.3862043187731209",
  chars! "0.3978715418811879",
  chars! "0.3223970632481147",
  chars! "0.21954173694250587",
  chars! "0.022902001426169515"], [
  chars! "65658.86212796661",
  chars! "14745.608065400247",
  chars! "9241.112583806194",
  chars! "6001.462635637288",
  chars! "2193.681385805911",
  chars! "1108.2728921435933",
  chars! "789.5130406441378",
  chars! "287.41502320604025",
  chars! "180.09891803117247",
  chars! "103.43047601714753",
  chars! "45.99106598088809",
  chars! "28.99449231480792",
  chars! "14.816853523895688",
  chars! "8.805767829983967",
  chars! "5.131091944794194",
  chars! "3.094194609688231",
  chars! "1.9696428481548844",
  chars! "1.2252405085809293",
  chars! "0.844385284982089",
  chars! "0.4971806864882868",
  chars! "0.2642484354726365"]⟩

/-- `he` in `data/kl_slsqp_results.json`. -/
noncomputable def slsqp_he : JEntry := ⟨chars! "he", chars! "21", chars! "0", [
  chars! "1.0527124324875343e-08",
  chars! "1.1140665589346961e-07",
  chars! "1e-12",
  chars! "5.657285875443004e-07",
  chars! "4.919224943689412e-06",
  chars! "1.0000000096425977e-12",
  chars! "3.596965611138181e-05",
  chars! "0.00027775695215365376",
  chars! "1e-12",
  chars! "0.0019780621372580617",
  chars! "0.005328724455242886",
  chars! "0.013203235863594889",
  chars! "0.04845745017010418",
  chars! "0.08100235343134254",
  chars! "0.21449513691860925",
  chars! "0.2712101598487574",
  chars! "0.431661983228038",
  chars! "0.5395716209495822",
  chars! "0.31597715489138795",
  chars! "0.07307399426138267",
  chars! "0.0037225724534772167"], [
  chars! "65658.86212796661",
  chars! "14745.60806540009",
  chars! "9241.112583805945",
  chars! "6001.462635630552",
  chars! "2193.6813858374676",
  chars! "1108.2728921284718",
  chars! "789.5130393168054",
  chars! "287.415035131694",
  chars! "180.09891639326963",
  chars! "103.43030708032667",
  chars! "45.99124968465561",
  chars! "28.99356811617534",
  chars! "14.819510972946759",
  chars! "8.796776170561385",
  chars! "5.148453703631756",
  chars! "3.0535209752181176",
  chars! "1.9703386150959195",
  chars! "1.1153165396805718",
  chars! "0.6204974220405554",
  chars! "0.35492334167548933",
  chars! "0.20408739356336394"]⟩

theorem fits_he_ok : fitsOk neutral_he fpi_he slsqp_he = true := by decide +kernel

/-- `li` in `data/kl_fpi_results.json`. -/
noncomputable def fpi_li : JEntry := ⟨chars! "li", chars! "25", chars! "0", [
  chars! "1.00736329675914e-08",
  chars! "1.749375803288967e-08",
  chars! "1.0431689345459547e-07",
  chars! "4.1371691430200325e-07",
  chars! "1.1454296850013085e-06",
  chars! "3.7383000680282525e-06",
  chars! "1.6990370235632986e-05",
  chars! "5.385776423631336e-05",
  chars! "0.00021120653430477222",
  chars! "0.0008243688791400322",
  chars! "0.0020135256270409096",
  chars! "0.007527871807759556",
  chars! "0.02199349808452237",
  chars! "0.054003458810540306",
  chars! "0.1244230047489039",
  chars! "0.21350361867079004",
  chars! "0.3457862919554156",
  chars! "0.3871282657567362",
  chars! "0.39519289148510056",
  chars! "0.28277277263414335",
  chars! "0.09412409577678818",
  chars! "0.22419824076152292",
  chars! "0.3876816972516383",
  chars! "0.31998863992510757",
  chars! "0.13855027382512167"], [
  chars! "204300.09153554038",
  chars! "31197.66494728029",
  chars! "18503.02075096841",
  chars! "15425.683752669223",
  chars! "11344.864652649589",
  chars! "2905.391444962976",
  chars! "2053.3615326679796",
  chars! "1566.1747784431448",
  chars! "427.9155681079761",
  chars! "373.2170637665097",
  chars! "185.21632051490278",
  chars! "89.96073215388918",
  chars! "57.64515113328915",
  chars! "30.164227937517165",
  chars! "17.52628258681071",
  chars! "11.561174153275129",
  chars! "5.783350691645969",
  chars! "5.364070897879748",
  chars! "2.300684358771159",
  chars! "2.3006800404827636",
  chars! "2.3006793372138947",
  chars! "0.12056055638618154",
  chars! "0.12056055581457853",
  chars! "0.08017822230624003",
  chars! "0.04845237909182103"]⟩

/-- `li` in `data/kl_slsqp_results.json`. -/
noncomputable def slsqp_li : JEntry := ⟨chars! "li", chars! "25", chars! "0", [
  chars! "1.2070372271864862e-08",
  chars! "1.0000000917455726e-12",
  chars! "1e-12",
  chars! "3.7149244603360876e-07",
  chars! "1.654763604463413e-06",
  chars! "1e-12",
  chars! "1.0000002347409566e-12",
  chars! "9.291201288499988e-05",
  chars! "0.0005900463939348022",
  chars! "1.0000011990951947e-12",
  chars! "0.0034585861188284207",
  chars! "0.0047717573753155015",
  chars! "0.022774851059453875",
  chars! "0.0656538078741872",
  chars! "1e-12",
  chars! "0.29596665072139416",
  chars! "0.27061001861087675",
  chars! "0.4890766159658833",
  chars! "0.445383989744991",
  chars! "0.32353938007635774",
  chars! "0.008033012246281104",
  chars! "0.3066076194184803",
  chars! "0.4700289146375735",
  chars! "0.2861430575954421",
  chars! "0.00726906418894125"], [
  chars! "204300.09153553998",
  chars! "31197.66494728298",
  chars! "18503.020750968473",
  chars! "15425.683752577022",
  chars! "11344.864652691038",
  chars! "2905.3914449260747",
  chars! "2053.3615326483496",
  chars! "1566.1745192643268",
  chars! "427.9170829123291",
  chars! "373.2170632594198",
  chars! "185.20665385366348",
  chars! "89.9632022718396",
  chars! "57.57543972420226",
  chars! "30.347250471289623",
  chars! "16.655647860698252",
  chars! "13.90625546765894",
  chars! "5.656444954475816",
  chars! "5.658026885616244",
  chars! "2.3016275332569407",
  chars! "2.3016487928933493",
  chars! "2.301722512321302",
  chars! "0.11456886452944619",
  chars! "0.11456840988145328",
  chars! "0.05825460744809616",
  chars! "0.030975047734629033"]⟩

theorem fits_li_ok : fitsOk neutral_li fpi_li slsqp_li = true := by decide +kernel

/-- `be` in `data/kl_fpi_results.json`. -/
noncomputable def fpi_be : JEntry := ⟨chars! "be", chars! "25", chars! "0", [
  chars! "1.9287240864228682e-08",
  chars! "1.0379215088329268e-07",
  chars! "3.425093115863741e-07",
  chars! "7.396385563272822e-07",
  chars! "3.6172440290492874e-06",
  chars! "1.4366874817279518e-05",
  chars! "3.7278626258007256e-05",
  chars! "0.00025222814306548097",
  chars! "0.0009831429710672416",
  chars! "0.0016554832497585113",
  chars! "0.0073997213354621534",
  chars! "0.019762182592577",
  chars! "0.05675436483692374",
  chars! "0.1254046489584731",
  chars! "0.2628954701385271",
  chars! "0.39924642515479875",
  chars! "0.37708986640637326",
  chars! "0.3806024820934746",
  chars! "0.24007429157950716",
  chars! "0.11462065874426744",
  chars! "0.3769922405423952",
  chars! "0.5631766247033663",
  chars! "0.3683320391268729",
  chars! "0.6660466523123016",
  chars! "0.03865500913231411"], [
  chars! "143301.82871740195",
  chars! "47575.77102627166",
  chars! "39304.011468939454",
  chars! "18498.88313739565",
  chars! "5796.478122230615",
  chars! "4777.272487684822",
  chars! "3273.268492290023",
  chars! "741.284994518907",
  chars! "718.1450303106974",
  chars! "304.2506828860805",
  chars! "160.4006856096706",
  chars! "120.92254889187203",
  chars! "47.66590731738049",
  chars! "39.361188850217395",
  chars! "15.095401979074856",
  chars! "14.847254066676276",
  chars! "5.605284014874595",
  chars! "5.605283871603415",
  chars! "5.6052838695952",
  chars! "0.26417216641258373",
  chars! "0.2641721664106929",
  chars! "0.2641721664067458",
  chars! "0.2623578928461035",
  chars! "0.12492281481597997",
  chars! "0.06545914134760382"]⟩

/-- `be` in `data/kl_slsqp_results.json`. -/
noncomputable def slsqp_be : JEntry := ⟨chars! "be", chars! "25", chars! "0", [
  chars! "2.024989747037446e-08",
  chars! "1e-12",
  chars! "3.8289933960429136e-07",
  chars! "1.4343174613354406e-06",
  chars! "1.000000537683307e-12",
  chars! "1e-12",
  chars! "7.344002048783975e-05",
  chars! "1.000008016284829e-12",
  chars! "0.0010238853336438543",
  chars! "0.0029259626793860967",
  chars! "0.003338269956166827",
  chars! "0.023064147986539413",
  chars! "0.05586244065753513",
  chars! "0.12542682614685569",
  chars! "0.25005477043268587",
  chars! "0.4120524633672303",
  chars! "0.3772819513415919",
  chars! "0.38088502581138867",
  chars! "0.24014741885457014",
  chars! "0.1137602897853396",
  chars! "0.37620124760882157",
  chars! "0.5623366467175696",
  chars! "0.36747787753603245",
  chars! "0.6676968348812399",
  chars! "0.0403912401580281"], [
  chars! "143301.82871740175",
  chars! "47575.77102627231",
  chars! "39304.01146893595",
  chars! "18498.88313733716",
  chars! "5796.478122231922",
  chars! "4777.272487684825",
  chars! "3273.2684815266753",
  chars! "741.2849866855764",
  chars! "718.14502979473",
  chars! "304.2510907074571",
  chars! "160.40030597880545",
  chars! "120.92649943041707",
  chars! "47.6321381113929",
  chars! "39.463434678536224",
  chars! "14.929256370744135",
  chars! "14.978111100914365",
  chars! "5.606339114752341",
  chars! "5.608234172440156",
  chars! "5.605592751314852",
  chars! "0.26393490829398003",
  chars! "0.26393614776656293",
  chars! "0.2639356688184199",
  chars! "0.263934811780292",
  chars! "0.1253259332887616",
  chars! "0.06599699030123782"]⟩

theorem fits_be_ok : fitsOk neutral_be fpi_be slsqp_be = true := by decide +kernel

/-- `b` in `data/kl_fpi_results.json`. -/
noncomputable def fpi_b : JEntry := ⟨chars! "b", chars! "25", chars! "15", [
  chars! "4.602447834567881e-07",
  chars! "7.284396656844756e-07",
  chars! "4.6877303829439005e-07",
  chars! "4.133716318144676e-06",
  chars! "1.8274238133484667e-05",
  chars! "4.989194193316887e-05",
  chars! "3.064061406368879e-05",
  chars! "0.00025317734330653613",
  chars! "0.0010061291629896488",
  chars! "0.002712214480114377",
  chars! "0.0049326662651237845",
  chars! "0.010723617064294118",
  chars! "0.024829239219676988",
  chars! "0.053416665125158504",
  chars! "0.10085327327451259",
  chars! "0.15734934384209537",
  chars! "0.19883177830636398",
  chars! "0.19805966518497412",
  chars! "0.14832363417065808",
  chars! "0.10062933748583067",
  chars! "0.2147511586670213",
  chars! "0.32659338878934463",
  chars! "0.36704089335559115",
  chars! "0.2969520548999944",
  chars! "0.19904905194467754",
  chars! "0.005787791373476381",
  chars! "0.02156795126968397",
  chars! "0.04560509582387869",
  chars! "0.09260006898070422",
  chars! "0.1600817048944528",
  chars! "0.21421596135183288",
  chars! "0.226278304350817",
  chars! "0.17763696873615006",
  chars! "0.06831869157556858",
  chars! "0.206048303795739",
  chars! "0.3756030041588717",
  chars! "0.44393400334796845",
  chars! "0.3723213231088935",
  chars! "0.17629478587946001",
  chars! "0.0072941547820736755"], [
  chars! "48328.35202453351",
  chars! "48111.02440623816",
  chars! "5582.33016350322",
  chars! "5545.1956526154345",
  chars! "5536.990185656182",
  chars! "5528.266147408644",
  chars! "821.8128956029298",
  chars! "790.4907661033212",
  chars! "785.2222321237269",
  chars! "779.5972144842615",
  chars! "709.0224518917191",
  chars! "243.60733953285018",
  chars! "128.1371867272716",
  chars! "70.02294086947984",
  chars! "40.07150343681273",
  chars! "23.756919236504174",
  chars! "14.870358074590156",
  chars! "9.709139274002403",
  chars! "6.914706139079852",
  chars! "1.2265261500909042",
  chars! "0.6591103841927939",
  chars! "0.4363448479878485",
  chars! "0.3113920084713075",
  chars! "0.24684051053931078",
  chars! "0.12470217279365506",
  chars! "552.0951708983418",
  chars! "322.25745879162736",
  chars! "161.79364470339635",
  chars! "90.31946558022072",
  chars! "50.80025900471365",
  chars! "29.22880164288378",
  chars! "17.741623735511446",
  chars! "10.35406687410382",
  chars! "6.954796100234711",
  chars! "1.429959218151207",
  chars! "0.9354527149174772",
  chars! "0.6146035911279801",
  chars! "0.3706687494200502",
  chars! "0.2178132786782184",
  chars! "0.0835663699486098"]⟩

/-- `b` in `data/kl_slsqp_results.json`. -/
noncomputable def slsqp_b : JEntry := ⟨chars! "b", chars! "25", chars! "15", [
  chars! "9.261582003482301e-07",
  chars! "1.00000000075477e-12",
  chars! "1.000000001683131e-12",
  chars! "1.0000000059256995e-12",
  chars! "1e-12",
  chars! "7.795969813342693e-05",
  chars! "0.005703495230776173",
  chars! "1.0000001613141401e-12",
  chars! "1.0000004135729306e-12",
  chars! "1e-12",
  chars! "1.0000089655474185e-12",
  chars! "1.0000002689432864e-12",
  chars! "0.08713444040734271",
  chars! "0.03375906973111934",
  chars! "0.10997980812425387",
  chars! "0.1870531279130405",
  chars! "0.13335150157858397",
  chars! "0.4117952148431885",
  chars! "0.09082329888546323",
  chars! "0.02235132766410927",
  chars! "0.23527757532165536",
  chars! "0.3581606323390756",
  chars! "0.3778626469728274",
  chars! "0.31537992851987645",
  chars! "0.06425053660003437",
  chars! "0.005934125334420044",
  chars! "0.00850476091997116",
  chars! "0.015654898549004915",
  chars! "0.09207451108657308",
  chars! "0.14524473911981212",
  chars! "0.1927043264303612",
  chars! "0.19626155798889877",
  chars! "0.10146934349397066",
  chars! "0.11041825530003466",
  chars! "0.24172185397780296",
  chars! "0.4877899106775506",
  chars! "0.5041575557535386",
  chars! "0.3230138328898959",
  chars! "0.14137457805492595",
  chars! "0.0007172836657501654"], [
  chars! "48328.35202456768",
  chars! "48111.02440623849",
  chars! "5582.330163497667",
  chars! "5545.195652614419",
  chars! "5536.990185368224",
  chars! "5528.266133212885",
  chars! "821.8130149785698",
  chars! "790.4907664498577",
  chars! "785.2222317501524",
  chars! "779.597225582543",
  chars! "709.0224445579067",
  chars! "243.6072353279188",
  chars! "128.1372223868279",
  chars! "70.02377864538063",
  chars! "40.06716843571588",
  chars! "23.768671972532744",
  chars! "14.849213017602375",
  chars! "9.730886753887296",
  chars! "6.910794207270808",
  chars! "1.216700038978022",
  chars! "0.640800827376561",
  chars! "0.4725183957364972",
  chars! "0.32919793429208893",
  chars! "0.23031183835097713",
  chars! "0.09348762782660038",
  chars! "552.0952803367923",
  chars! "322.257044989998",
  chars! "161.7942874549958",
  chars! "90.32186990340495",
  chars! "50.78107107496472",
  chars! "29.279584345415863",
  chars! "17.646658002993377",
  chars! "10.444020473423059",
  chars! "6.887119123997431",
  chars! "1.5128196853369473",
  chars! "0.8779422043992229",
  chars! "0.49963959022820237",
  chars! "0.2919317046258974",
  chars! "0.1776119210734198",
  chars! "0.06195496400359521"]⟩

theorem fits_b_ok : fitsOk neutral_b fpi_b slsqp_b = true := by decide +kernel

/-- `c` in `data/kl_fpi_results.json`. -/
noncomputable def fpi_c : JEntry := ⟨chars! "c", chars! "23", chars! "15", [
  chars! "1.0865970465032532e-06",
  chars! "3.9970015327490003e-07",
  chars! "4.106114645664862e-06",
  chars! "1.7951548432504056e-05",
  chars! "4.881893463620982e-05",
  chars! "7.366859216646808e-05",
  chars! "0.0005000638567449099",
  chars! "0.001870060171847482",
  chars! "0.0047693080061391585",
  chars! "0.008715333700227422",
  chars! "0.017828176754785003",
  chars! "0.03961243754441219",
  chars! "0.07926826919694228",
  chars! "0.1346084273733831",
  chars! "0.18906852477414088",
  chars! "0.20860818906963965",
  chars! "0.18261093873089498",
  chars! "0.09932432340858427",
  chars! "0.22593855132635807",
  chars! "0.3774322884537657",
  chars! "0.46334425749939895",
  chars! "0.43473224284450934",
  chars! "0.3111421995121115",
  chars! "0.014613337322763265",
  chars! "0.030201132437732918",
  chars! "0.07198548567614334",
  chars! "0.13115023881074298",
  chars! "0.1961191092325087",
  chars! "0.23793530735274906",
  chars! "0.20790635240538125",
  chars! "0.13126531635446506",
  chars! "0.19077161964455042",
  chars! "0.4081715161475335",
  chars! "0.5604056498679343",
  chars! "0.5066049259231957",
  chars! "0.3569735809686564",
  chars! "0.1632684726330115",
  chars! "0.013108331479287994"], [
  chars! "73524.28692680491",
  chars! "8380.179074475116",
  chars! "8261.614161552227",
  chars! "8249.10214442886",
  chars! "8236.461405863776",
  chars! "1083.3942885287",
  chars! "1065.3772588556235",
  chars! "1056.5970326117151",
  chars! "1036.6890633636751",
  chars! "535.0276131346787",
  chars! "265.30795752267204",
  chars! "132.26151402449526",
  chars! "74.46986259207151",
  chars! "43.14518458581601",
  chars! "26.38951279852682",
  chars! "17.087037824734207",
  chars! "11.098835514307405",
  chars! "3.3584318476791113",
  chars! "1.232369041982449",
  chars! "0.8035998863472437",
  chars! "0.5473283965984038",
  chars! "0.3739087878299923",
  chars! "0.2861857412549744",
  chars! "570.4927391260741",
  chars! "312.3520116296849",
  chars! "169.94300063377298",
  chars! "94.77249450769855",
  chars! "54.11773762797962",
  chars! "32.04676423936352",
  chars! "19.02992445087363",
  chars! "11.811635776292064",
  chars! "2.4550027875955887",
  chars! "1.7416890334846373",
  chars! "1.087090429461013",
  chars! "0.7172592575275575",
  chars! "0.4261232033494331",
  chars! "0.22860106127808552",
  chars! "0.12556763738823717"]⟩

/-- `c` in `data/kl_slsqp_results.json`. -/
noncomputable def slsqp_c : JEntry := ⟨chars! "c", chars! "23", chars! "15", [
  chars! "5.937692244420547e-07",
  chars! "1.00000001945041e-12",
  chars! "1e-12",
  chars! "1e-12",
  chars! "8.307687520511423e-05",
  chars! "0.005400111649710039",
  chars! "1e-12",
  chars! "1.0000006823489779e-12",
  chars! "1e-12",
  chars! "0.026598632290992668",
  chars! "1.000000042027749e-12",
  chars! "1.0000055595872933e-12",
  chars! "0.022569741105904827",
  chars! "0.1330981076070716",
  chars! "0.15345283767171108",
  chars! "0.34847345814925984",
  chars! "0.03487323568075899",
  chars! "0.07382743771025004",
  chars! "0.22421355220872088",
  chars! "0.39799990719710115",
  chars! "0.4867545603915347",
  chars! "0.4436113674058094",
  chars! "0.40305225436056524",
  chars! "0.016154124031123485",
  chars! "0.05889938057507378",
  chars! "0.1074710889069167",
  chars! "0.1627354146892783",
  chars! "0.20326713135389082",
  chars! "0.22775886868072706",
  chars! "0.20639050030344974",
  chars! "0.19307570832340912",
  chars! "0.22986391020819966",
  chars! "0.37278583916217045",
  chars! "0.601689281674316",
  chars! "0.5321356722060221",
  chars! "0.31523173222003315",
  chars! "0.01790279731900643",
  chars! "0.0006331246821283986"], [
  chars! "73524.28692685292",
  chars! "8380.17907447233",
  chars! "8261.614161553132",
  chars! "8249.102144428198",
  chars! "8236.461373249818",
  chars! "1083.3946883918873",
  chars! "1065.3772657047284",
  chars! "1056.597034413069",
  chars! "1036.6890644685107",
  chars! "535.0280417172713",
  chars! "265.30794566194476",
  chars! "132.2617719047484",
  chars! "74.4672470760297",
  chars! "43.15145873436664",
  chars! "26.377773455736097",
  chars! "17.110015672956045",
  chars! "11.084266804429713",
  chars! "3.362383863896026",
  chars! "1.2229493482536211",
  chars! "0.7892772949156538",
  chars! "0.5569408101119032",
  chars! "0.3995903813165371",
  chars! "0.20239828217202507",
  chars! "570.4937983058461",
  chars! "312.3495891280904",
  chars! "169.9478559181596",
  chars! "94.76716969681112",
  chars! "54.137320425311515",
  chars! "32.00807089595257",
  chars! "19.091174730280297",
  chars! "11.717501653092125",
  chars! "2.4894682579210454",
  chars! "1.6836706833668325",
  chars! "1.079615447427186",
  chars! "0.6473214269570298",
  chars! "0.38564333813579355",
  chars! "0.14038995906126703",
  chars! "0.0858851068556894"]⟩

theorem fits_c_ok : fitsOk neutral_c fpi_c slsqp_c = true := by decide +kernel

/-- `n` in `data/kl_fpi_results.json`. -/
noncomputable def fpi_n : JEntry := ⟨chars! "n", chars! "23", chars! "16", [
  chars! "2.729745715436459e-07",
  chars! "1.1161077501060326e-06",
  chars! "2.1938230912409433e-06",
  chars! "1.4300618924356856e-05",
  chars! "8.482065919348969e-05",
  chars! "0.00031433195148202267",
  chars! "0.0007894939462709451",
  chars! "0.0019776103989903844",
  chars! "0.003912709235871868",
  chars! "0.010367147614921758",
  chars! "0.02548479802550733",
  chars! "0.05524609403464414",
  chars! "0.10487454642037318",
  chars! "0.1627227978621678",
  chars! "0.20625012236629814",
  chars! "0.20644699183468643",
  chars! "0.1624663653847804",
  chars! "0.21237966849289505",
  chars! "0.3886684630739307",
  chars! "0.5435632275596086",
  chars! "0.5759540354298258",
  chars! "0.45173073344513803",
  chars! "0.2921450740988336",
  chars! "0.004580538451233421",
  chars! "0.007057329953154141",
  chars! "0.021217853395986648",
  chars! "0.04863492046917987",
  chars! "0.09542978018280744",
  chars! "0.1674638077186651",
  chars! "0.22031580683615182",
  chars! "0.23776793880011823",
  chars! "0.18504031398376275",
  chars! "0.12617190923099286",
  chars! "0.38069719421316284",
  chars! "0.6149709443094478",
  chars! "0.6771402560826593",
  chars! "0.5458007129563052",
  chars! "0.2513912769015173",
  chars! "0.010922501132397767"], [
  chars! "59075.50331832322",
  chars! "57142.69340509326",
  chars! "56220.89183783164",
  chars! "4658.730889378901",
  chars! "4626.518691747811",
  chars! "4591.239381582344",
  chars! "4298.601178437089",
  chars! "1780.1460092585335",
  chars! "926.4218942557711",
  chars! "463.2678287595517",
  chars! "244.06659624201217",
  chars! "136.42832373689527",
  chars! "78.38089167873117",
  chars! "46.69176002806219",
  chars! "29.202480515639586",
  chars! "18.77790264404666",
  chars! "10.452522510206148",
  chars! "2.432071268512222",
  chars! "1.4151769198273019",
  chars! "0.936837180493368",
  chars! "0.637712598301879",
  chars! "0.5011900659829484",
  chars! "0.24546320132126398",
  chars! "2161.8488159631675",
  chars! "826.9023409509126",
  chars! "648.6460117500088",
  chars! "313.4391118139806",
  chars! "178.07421228320942",
  chars! "99.70030484198857",
  chars! "57.55830135151314",
  chars! "34.59034276833849",
  chars! "19.540472697207132",
  chars! "4.866074919056243",
  chars! "2.9690491337272578",
  chars! "1.9043342536362098",
  chars! "1.2381156894144143",
  chars! "0.7310631202615625",
  chars! "0.42782683113785247",
  chars! "0.16366043741360456"]⟩

/-- `n` in `data/kl_slsqp_results.json`. -/
noncomputable def slsqp_n : JEntry := ⟨chars! "n", chars! "23", chars! "16", [
  chars! "1.0000000157204308e-12",
  chars! "1.0000000157596641e-12",
  chars! "5.248057959284774e-06",
  chars! "0.00044800662811154745",
  chars! "1.0000001407822927e-12",
  chars! "1.0000000871881685e-12",
  chars! "1.0000003473378426e-12",
  chars! "0.0007907012543607056",
  chars! "0.0013809085213722237",
  chars! "0.027115609318416178",
  chars! "0.08479562668905594",
  chars! "0.013291590603023963",
  chars! "0.14367753049029383",
  chars! "0.16847680802403592",
  chars! "0.14803081879577876",
  chars! "0.34952184112024853",
  chars! "0.19993011050685683",
  chars! "0.19365308714309337",
  chars! "0.4371941867960228",
  chars! "0.5969531881465596",
  chars! "0.5989459097477606",
  chars! "0.4926031264575686",
  chars! "0.0985107228590797",
  chars! "0.0006650484652175317",
  chars! "1.0000001834600962e-12",
  chars! "1.0000003887452816e-12",
  chars! "0.0209316969732133",
  chars! "0.10170154484378087",
  chars! "0.14662842293512737",
  chars! "0.20932026534121842",
  chars! "0.21012059927309532",
  chars! "0.10466815424724399",
  chars! "0.09899222317973443",
  chars! "0.39172779088810805",
  chars! "0.7490637222480635",
  chars! "0.7226400916967813",
  chars! "0.4865465992678674",
  chars! "0.20057181305335006",
  chars! "0.0011006090802169043"], [
  chars! "59075.50331832318",
  chars! "57142.69340509299",
  chars! "56220.8918378142",
  chars! "4658.730910744038",
  chars! "4626.518691724495",
  chars! "4591.239381300391",
  chars! "4298.601178321949",
  chars! "1780.1460159090286",
  chars! "926.4218969056919",
  chars! "463.26777674263457",
  chars! "244.06694367961913",
  chars! "136.428375972693",
  chars! "78.38013304953716",
  chars! "46.695175894101055",
  chars! "29.195974374260434",
  chars! "18.784275786149696",
  chars! "10.445718436532122",
  chars! "2.4265578769032174",
  chars! "1.4058073978431203",
  chars! "0.9320460982751977",
  chars! "0.6873827289570815",
  chars! "0.4375400209672121",
  chars! "0.1845102642781363",
  chars! "2161.848814206093",
  chars! "826.9023335751605",
  chars! "648.645885079668",
  chars! "313.439532842852",
  chars! "178.07302401085084",
  chars! "99.69749966966313",
  chars! "57.57212110146279",
  chars! "34.55900488292266",
  chars! "19.566040306140444",
  chars! "4.8230898379915255",
  chars! "3.04908450384878",
  chars! "1.80816162932123",
  chars! "1.0383947027300509",
  chars! "0.600407012030468",
  chars! "0.351573010845909",
  chars! "0.12118451270440524"]⟩

theorem fits_n_ok : fitsOk neutral_n fpi_n slsqp_n = true := by decide +kernel

/-- `o` in `data/kl_fpi_results.json`. -/
noncomputable def fpi_o : JEntry := ⟨chars! "o", chars! "23", chars! "16", [
  chars! "3.321689242241512e-08",
  chars! "2.7532262907904486e-07",
  chars! "1.0609290337831572e-06",
  chars! "2.2618377730780048e-06",
  chars! "2.579106942682938e-05",
  chars! "0.0001413547175825311",
  chars! "0.0004895544214117317",
  chars! "0.0010447573293369938",
  chars! "0.002428042851514212",
  chars! "0.006156343880571251",
  chars! "0.014480814903469294",
  chars! "0.036056637585048706",
  chars! "0.07325194978588358",
  chars! "0.12967467179757744",
  chars! "0.1843864046199502",
  chars! "0.21491501327531315",
  chars! "0.19260630367399892",
  chars! "0.17990029127293053",
  chars! "0.346371244139597",
  chars! "0.5555214286252186",
  chars! "0.6827834982793258",
  chars! "0.6450790466357548",
  chars! "0.4826137204844415",
  chars! "0.0048328124737345955",
  chars! "0.013842089132349642",
  chars! "0.025549110814841965",
  chars! "0.07101462179956605",
  chars! "0.12033364182267929",
  chars! "0.19717645433410422",
  chars! "0.23237285043393857",
  chars! "0.23073630758534877",
  chars! "0.1387185757570476",
  chars! "0.28435230645279",
  chars! "0.5854716701412217",
  chars! "0.7815517354704505",
  chars! "0.7512518548256096",
  chars! "0.5379952300172106",
  chars! "0.25591999925184505",
  chars! "0.020950238965416583"], [
  chars! "749602.243752171",
  chars! "75929.75167048992",
  chars! "73671.8683164953",
  chars! "69403.28991546495",
  chars! "6713.172438488839",
  chars! "6608.104136803321",
  chars! "6454.014894285788",
  chars! "3887.2497394594343",
  chars! "2154.39535377826",
  chars! "858.5297752357139",
  chars! "466.32578124019574",
  chars! "249.5294123980934",
  chars! "142.90675992312163",
  chars! "83.04107119883994",
  chars! "50.71183517342198",
  chars! "31.805720760010985",
  chars! "21.41786889545649",
  chars! "5.683769812746157",
  chars! "2.592734274994727",
  chars! "1.6065743952296885",
  chars! "1.0811519996724162",
  chars! "0.7040607244313897",
  chars! "0.5153976047417269",
  chars! "2762.421341264044",
  chars! "1072.063185395013",
  chars! "674.893107782049",
  chars! "332.2114384442694",
  chars! "184.53613169653556",
  chars! "104.6234202147048",
  chars! "61.3418769452138",
  chars! "36.30364999835617",
  chars! "19.94561653685835",
  chars! "5.174706111010429",
  chars! "3.3566930631391516",
  chars! "2.1058747369039574",
  chars! "1.3432552320654372",
  chars! "0.7539736834588064",
  chars! "0.38709777437850684",
  chars! "0.20331506599921936"]⟩

/-- `o` in `data/kl_slsqp_results.json`. -/
noncomputable def slsqp_o : JEntry := ⟨chars! "o", chars! "23", chars! "16", [
  chars! "1.0000000006562745e-12",
  chars! "1e-12",
  chars! "1e-12",
  chars! "5.327374158681559e-06",
  chars! "0.00033023996685290066",
  chars! "1.0000028201746851e-12",
  chars! "1.000001023784482e-12",
  chars! "1.0000001752204003e-12",
  chars! "0.0014857951042895634",
  chars! "0.004708026080108031",
  chars! "0.055179852079477384",
  chars! "0.06650311606044004",
  chars! "0.06944416685422322",
  chars! "0.13774620017749403",
  chars! "0.18541917778554579",
  chars! "0.18751589588003476",
  chars! "0.2560662548957683",
  chars! "0.1878439356220399",
  chars! "0.35328854316346114",
  chars! "0.5977202588251034",
  chars! "0.7189430839852619",
  chars! "0.663552031888122",
  chars! "0.6038063947907134",
  chars! "0.00045134644851352773",
  chars! "1e-12",
  chars! "1e-12",
  chars! "0.04645177579168604",
  chars! "0.12098008304715671",
  chars! "0.18957629860919487",
  chars! "0.23249772441890174",
  chars! "0.21316971603350043",
  chars! "0.114120970894564",
  chars! "0.2626998960254332",
  chars! "0.5896101983630329",
  chars! "0.8649950061798528",
  chars! "0.758820445180603",
  chars! "0.48353128614237384",
  chars! "0.0322615832892902",
  chars! "0.0012791382485003377"], [
  chars! "749602.243752171",
  chars! "75929.75167048992",
  chars! "73671.86831649528",
  chars! "69403.28991541169",
  chars! "6713.172438314974",
  chars! "6608.104136891208",
  chars! "6454.0148945357405",
  chars! "3887.24973979045",
  chars! "2154.3953512954376",
  chars! "858.5298047236802",
  chars! "466.32568862346614",
  chars! "249.5295101312731",
  chars! "142.90672838984585",
  chars! "83.04096636825844",
  chars! "50.71270627098616",
  chars! "31.80378056535084",
  chars! "21.41776353630978",
  chars! "5.683333298290203",
  chars! "2.5857927272486214",
  chars! "1.5981272973393688",
  chars! "1.082771258406289",
  chars! "0.7531832575778517",
  chars! "0.3459246871540388",
  chars! "2762.4213376472044",
  chars! "1072.0631974809419",
  chars! "674.8930171165001",
  chars! "332.21180319009505",
  chars! "184.53559133022824",
  chars! "104.62332838386047",
  chars! "61.34463456549845",
  chars! "36.29659604874746",
  chars! "19.95386279590489",
  chars! "5.167708137212634",
  chars! "3.3471284298275066",
  chars! "2.040776584859399",
  chars! "1.190347823773237",
  chars! "0.6909754192559165",
  chars! "0.23498015785934617",
  chars! "0.1393747563474339"]⟩

theorem fits_o_ok : fitsOk neutral_o fpi_o slsqp_o = true := by decide +kernel

/-- `f` in `data/kl_fpi_results.json`. -/
noncomputable def fpi_f : JEntry := ⟨chars! "f", chars! "24", chars! "16", [
  chars! "1.5054915604741033e-06",
  chars! "5.407628371764587e-07",
  chars! "4.480825222500441e-06",
  chars! "2.260155152485885e-05",
  chars! "7.057660955172176e-05",
  chars! "0.00012581530558528945",
  chars! "0.00020021691299791335",
  chars! "0.0005893251715751892",
  chars! "0.0016185554932863927",
  chars! "0.0029528307155089",
  chars! "0.009090154038329412",
  chars! "0.02068980292188375",
  chars! "0.04734906372835757",
  chars! "0.09285805614973447",
  chars! "0.15168217448865987",
  chars! "0.20403835059914968",
  chars! "0.21913160102536036",
  chars! "0.19250693124339002",
  chars! "0.2642877117186194",
  chars! "0.4860565179165593",
  chars! "0.7014880373423048",
  chars! "0.7641818283795303",
  chars! "0.6529722875338969",
  chars! "0.45062309211132695",
  chars! "0.004067613957676924",
  chars! "0.02438034967994142",
  chars! "0.0360909181915863",
  chars! "0.08665722611933606",
  chars! "0.1510609039852551",
  chars! "0.2145989285577782",
  chars! "0.24907893881817897",
  chars! "0.21417710522839048",
  chars! "0.157040217138389",
  chars! "0.4693798079310922",
  chars! "0.7710672432514216",
  chars! "0.9006010235028649",
  chars! "0.7387726465593784",
  chars! "0.48405142382859573",
  chars! "0.2192530823665876",
  chars! "0.01718051279725356"], [
  chars! "129216.39355061894",
  chars! "126884.77421847294",
  chars! "10565.666364751036",
  chars! "10553.241576457309",
  chars! "10544.800676887226",
  chars! "10508.025180971663",
  chars! "9052.876485874303",
  chars! "3728.4549024962325",
  chars! "3283.370709325606",
  chars! "2756.5090960889206",
  chars! "867.1271484094451",
  chars! "484.3298539830999",
  chars! "258.7755371393328",
  chars! "148.86251670588064",
  chars! "87.47841163742977",
  chars! "54.12189843252032",
  chars! "33.96932249048726",
  chars! "18.57782054780122",
  chars! "4.758680603945065",
  chars! "2.761794150784513",
  chars! "1.8003708892415489",
  chars! "1.2196363906530365",
  chars! "0.7941846823671245",
  chars! "0.5761824225215005",
  chars! "3363.4454373413587",
  chars! "1230.259895254787",
  chars! "604.2011262889964",
  chars! "342.3522556582186",
  chars! "189.7392766284271",
  chars! "108.7244309017069",
  chars! "64.51182044716472",
  chars! "35.49416213079978",
  chars! "10.64956368601565",
  chars! "5.718438976477124",
  chars! "3.726177430296846",
  chars! "2.3058376694548857",
  chars! "1.4678516080939996",
  chars! "0.8358504168036368",
  chars! "0.4346238256782281",
  chars! "0.23126979803286987"]⟩

/-- `f` in `data/kl_slsqp_results.json`. -/
noncomputable def slsqp_f : JEntry := ⟨chars! "f", chars! "24", chars! "16", [
  chars! "1e-12",
  chars! "3.0798710407692164e-06",
  chars! "0.00019458610110872435",
  chars! "1.000000113086339e-12",
  chars! "1e-12",
  chars! "1e-12",
  chars! "1.000000037169205e-12",
  chars! "1e-12",
  chars! "0.0007737220015999442",
  chars! "0.0007815143603097511",
  chars! "0.03297813973189218",
  chars! "0.03898041233269041",
  chars! "0.03093196474649412",
  chars! "0.11342152441421048",
  chars! "0.16998116063709479",
  chars! "0.11786808164944977",
  chars! "0.36584725974288557",
  chars! "0.2392370372317371",
  chars! "0.3199381924907764",
  chars! "0.5094525102883134",
  chars! "0.7238555527730701",
  chars! "0.7917588121400968",
  chars! "0.6856369193614235",
  chars! "0.57608551591785",
  chars! "0.00024196470749626687",
  chars! "1e-12",
  chars! "0.02999258718884101",
  chars! "0.0839060113526503",
  chars! "0.13937979377021392",
  chars! "0.20492570384305078",
  chars! "0.2334351570583015",
  chars! "0.11857344893977187",
  chars! "0.0962043524508953",
  chars! "0.44630632389048563",
  chars! "0.8101542702336925",
  chars! "0.890490715905225",
  chars! "0.7432488030600091",
  chars! "0.4546340288515702",
  chars! "0.029677876401941326",
  chars! "0.0011076792937555727"], [
  chars! "129216.39355061842",
  chars! "126884.77421820372",
  chars! "10565.666372555434",
  chars! "10553.24157676424",
  chars! "10544.800677853982",
  chars! "10508.025180981656",
  chars! "9052.876485440114",
  chars! "3728.454900145423",
  chars! "3283.3707454031655",
  chars! "2756.509145918863",
  chars! "867.128350443544",
  chars! "484.33097394479836",
  chars! "258.77588810148245",
  chars! "148.8700326852517",
  chars! "87.49000372207492",
  chars! "54.10833739454055",
  chars! "33.95894946743454",
  chars! "18.581595705272044",
  chars! "4.778158942099963",
  chars! "2.759206951407022",
  chars! "1.807921685541793",
  chars! "1.2183172748940718",
  chars! "0.8464353843329067",
  chars! "0.3993827927726376",
  chars! "3363.4451380584123",
  chars! "1230.2598409389325",
  chars! "604.1994697939866",
  chars! "342.3523373682798",
  chars! "189.73253131451554",
  chars! "108.73406074345803",
  chars! "64.48072654456335",
  chars! "35.49640782050814",
  chars! "10.56605180318388",
  chars! "5.9751602696805675",
  chars! "3.622439156030315",
  chars! "2.2573153360759917",
  chars! "1.366547804319884",
  chars! "0.7951648316615731",
  chars! "0.2712413241006495",
  chars! "0.16061274217441063"]⟩

theorem fits_f_ok : fitsOk neutral_f fpi_f slsqp_f = true := by decide +kernel

/-- `ne` in `data/kl_fpi_results.json`. -/
noncomputable def fpi_ne : JEntry := ⟨chars! "ne", chars! "23", chars! "16", [
  chars! "3.484159826564213e-07",
  chars! "4.01108342803848e-06",
  chars! "1.6083115794585893e-05",
  chars! "3.712852320425465e-05",
  chars! "4.5509524948161486e-05",
  chars! "0.00033561834083755445",
  chars! "0.0013208904580890243",
  chars! "0.003530593814802293",
  chars! "0.006356313582110054",
  chars! "0.01227745956595337",
  chars! "0.028152404371121265",
  chars! "0.059630638663183515",
  chars! "0.11150669467873092",
  chars! "0.17016799892725615",
  chars! "0.21487133520689544",
  chars! "0.21354027830865346",
  chars! "0.2072985195028882",
  chars! "0.38546826465431105",
  chars! "0.6453950017227209",
  chars! "0.8357541399757965",
  chars! "0.8234311529107621",
  chars! "0.6446599208151754",
  chars! "0.41562178237233754",
  chars! "0.006757857816181055",
  chars! "0.023880906140262195",
  chars! "0.05201768404203747",
  chars! "0.10183386477353931",
  chars! "0.1765882803173704",
  chars! "0.22791376682707726",
  chars! "0.24947884765946254",
  chars! "0.1846478706339654",
  chars! "0.29464337857363704",
  chars! "0.6552132544872149",
  chars! "0.943520718845676",
  chars! "0.9658440868430408",
  chars! "0.7117583280931135",
  chars! "0.42579997355724425",
  chars! "0.1866258838456055",
  chars! "0.014053208973223154"], [
  chars! "28762.818072119346",
  chars! "28679.140526966483",
  chars! "28673.985439561322",
  chars! "28668.267261477165",
  chars! "2674.3282928736085",
  chars! "2671.507597914983",
  chars! "2670.489160811296",
  chars! "2669.2181872679002",
  chars! "2638.5064949776875",
  chars! "978.2295718817927",
  chars! "489.65474894058286",
  chars! "271.0568833175974",
  chars! "155.19009952620922",
  chars! "93.2185990975825",
  chars! "57.78300163682195",
  chars! "37.2770242394187",
  chars! "12.413830532461267",
  chars! "4.964807935830611",
  chars! "3.0384777662275404",
  chars! "2.0032100181730166",
  chars! "1.3591917947706245",
  chars! "0.8921266982569803",
  chars! "0.6411088035445948",
  chars! "1619.5463238508494",
  chars! "1279.169566904022",
  chars! "609.7466506086241",
  chars! "352.45580817150875",
  chars! "196.2448301533784",
  chars! "114.25339220014554",
  chars! "67.20981259380979",
  chars! "36.68938847461497",
  chars! "10.092988922227601",
  chars! "6.226902204312262",
  chars! "4.001993233446605",
  chars! "2.490531679207493",
  chars! "1.5750705283124706",
  chars! "0.9171236982511212",
  chars! "0.4889797394933668",
  chars! "0.26448268422721444"]⟩

/-- `ne` in `data/kl_slsqp_results.json`. -/
noncomputable def slsqp_ne : JEntry := ⟨chars! "ne", chars! "23", chars! "16", [
  chars! "1e-12",
  chars! "1e-12",
  chars! "1.0000001932755852e-12",
  chars! "7.430521987598431e-05",
  chars! "0.008292802701439375",
  chars! "1.000000211202912e-12",
  chars! "1.000017363858557e-12",
  chars! "1e-12",
  chars! "1e-12",
  chars! "1.0000093101890449e-12",
  chars! "0.09113477006164351",
  chars! "0.0719449839094123",
  chars! "0.13025854385286215",
  chars! "0.16659277114719945",
  chars! "0.22212346531903956",
  chars! "0.2031377258388439",
  chars! "0.21355651029544603",
  chars! "0.39360925747254094",
  chars! "0.6475209986067799",
  chars! "0.8582049457038877",
  chars! "0.8511319242577451",
  chars! "0.66417889014259",
  chars! "0.477310730697663",
  chars! "0.008306088939908494",
  chars! "0.0055838406248660466",
  chars! "0.015320697619826885",
  chars! "0.085957695271859",
  chars! "0.17151574952936827",
  chars! "0.22293131060183446",
  chars! "0.25470965459344125",
  chars! "0.18275742958882932",
  chars! "0.2779091318710372",
  chars! "0.6761130015091924",
  chars! "0.9236149064091459",
  chars! "1.0156639532121796",
  chars! "0.7427939473949444",
  chars! "0.39466830846994294",
  chars! "0.022322734528838154",
  chars! "0.0007634312734074902"], [
  chars! "28762.818072119484",
  chars! "28679.140526965555",
  chars! "28673.98543920949",
  chars! "28668.267260125827",
  chars! "2674.3283038668683",
  chars! "2671.5076044152825",
  chars! "2670.4891664527336",
  chars! "2669.2181900239393",
  chars! "2638.5064938613336",
  chars! "978.229546669916",
  chars! "489.65484270587524",
  chars! "271.05679945464277",
  chars! "155.19031113070344",
  chars! "93.21835648100789",
  chars! "57.78331243185064",
  chars! "37.276938936689454",
  chars! "12.415490860116208",
  chars! "4.9680159858580755",
  chars! "3.02832651886467",
  chars! "1.9927201431058592",
  chars! "1.3397454558571322",
  chars! "0.9167695471988542",
  chars! "0.4421122052607291",
  chars! "1619.5463305577166",
  chars! "1279.169541308707",
  chars! "609.7468546645126",
  chars! "352.4552622218869",
  chars! "196.2458526998901",
  chars! "114.25237656328203",
  chars! "67.21056574201369",
  chars! "36.68804030935042",
  chars! "10.08105999414239",
  chars! "6.24762898521954",
  chars! "3.968057263546922",
  chars! "2.4781953497811924",
  chars! "1.4693530694135508",
  chars! "0.8585374343610406",
  chars! "0.30386572621513896",
  chars! "0.18146565335225628"]⟩

theorem fits_ne_ok : fitsOk neutral_ne fpi_ne slsqp_ne = true := by decide +kernel

/-- `na` in `data/kl_fpi_results.json`. -/
noncomputable def fpi_na : JEntry := ⟨chars! "na", chars! "27", chars! "16", [
  chars! "1.2322774511884236e-08",
  chars! "2.963236728786343e-07",
  chars! "1.0193406996052299e-06",
  chars! "1.0966459257697573e-06",
  chars! "3.063287246275626e-05",
  chars! "0.0001631679802500157",
  chars! "0.00055471671142247",
  chars! "0.0009708527138893037",
  chars! "0.0024797188181222784",
  chars! "0.005609701168298052",
  chars! "0.013764487244822803",
  chars! "0.035360416911601265",
  chars! "0.07264741596649425",
  chars! "0.1299416350308308",
  chars! "0.18755599157776232",
  chars! "0.2265437401911994",
  chars! "0.2118844716014209",
  chars! "0.2649055144962123",
  chars! "0.5083054299713206",
  chars! "0.7735239716486147",
  chars! "0.8817611642146465",
  chars! "0.7605728518286389",
  chars! "0.5110864330627868",
  chars! "0.2398710761291869",
  chars! "0.32080728964819527",
  chars! "0.4237888827140635",
  chars! "0.11136552646631899",
  chars! "0.005670925862079729",
  chars! "0.012429428936975432",
  chars! "0.025282664163848376",
  chars! "0.07134595998317793",
  chars! "0.12031446132253072",
  chars! "0.19929752318352906",
  chars! "0.24045175065355429",
  chars! "0.25532270467198",
  chars! "0.1512733498673861",
  chars! "0.46624908102488166",
  chars! "0.8342150649132036",
  chars! "1.0383010268753226",
  chars! "0.8929305105612516",
  chars! "0.5565799734043915",
  chars! "0.23946785105792678",
  chars! "0.2073702099163269"], [
  chars! "2398781.7449484426",
  chars! "177712.04722426864",
  chars! "177433.4326567781",
  chars! "175745.24366871154",
  chars! "12576.392477644677",
  chars! "12559.082218946583",
  chars! "12529.329330417082",
  chars! "7445.965421613505",
  chars! "4164.767444067301",
  chars! "1608.747809411019",
  chars! "882.2038713311118",
  chars! "479.5651885983685",
  chars! "278.1506779163849",
  chars! "160.57794973436728",
  chars! "98.6387919733105",
  chars! "58.85343324336122",
  chars! "39.65286743691152",
  chars! "9.444900960240961",
  chars! "5.176036724881986",
  chars! "3.3390173712182856",
  chars! "2.282026867812152",
  chars! "1.5943963074572065",
  chars! "1.1491419684178221",
  chars! "0.57035206175368",
  chars! "0.08782788462399914",
  chars! "0.07242322851189667",
  chars! "0.041288934718824936",
  chars! "5232.697109923076",
  chars! "1917.4945447707623",
  chars! "1435.3848400004492",
  chars! "647.5668088338435",
  chars! "362.2816808840816",
  chars! "201.59491045614288",
  chars! "119.20362757304702",
  chars! "65.56886599839227",
  chars! "28.349609851437208",
  chars! "11.131343440251703",
  chars! "6.8525039017137646",
  chars! "4.3744150196900575",
  chars! "2.8255173706194063",
  chars! "1.7699179592621124",
  chars! "1.1821321435205465",
  chars! "0.2003156264832784"]⟩

/-- `na` in `data/kl_slsqp_results.json`. -/
noncomputable def slsqp_na : JEntry := ⟨chars! "na", chars! "27", chars! "16", [
  chars! "1e-12",
  chars! "1e-12",
  chars! "1e-12",
  chars! "3.977938271557746e-06",
  chars! "0.0003606375344076715",
  chars! "1e-12",
  chars! "1e-12",
  chars! "1e-12",
  chars! "0.0013568437848422961",
  chars! "0.006076104342326068",
  chars! "0.0454151706788708",
  chars! "0.02997025090306632",
  chars! "0.10615485462999587",
  chars! "0.3482075893742346",
  chars! "0.024863155452173692",
  chars! "0.486471368950307",
  chars! "0.4060899947838794",
  chars! "0.44357676243992944",
  chars! "0.5658109948516478",
  chars! "0.7893137223889922",
  chars! "0.8853856713064595",
  chars! "0.7927540900602048",
  chars! "0.5380928798037428",
  chars! "0.13585810550247765",
  chars! "0.6144707760442765",
  chars! "0.2131713796885322",
  chars! "0.012633869189138898",
  chars! "0.0005011572440571671",
  chars! "1e-12",
  chars! "1e-12",
  chars! "0.031127849091221346",
  chars! "0.046480294581206734",
  chars! "0.08007445950391882",
  chars! "0.20286642193449014",
  chars! "0.010417771868584766",
  chars! "0.055745705024469884",
  chars! "0.3128597476084793",
  chars! "0.8765685836291143",
  chars! "0.9795850117824402",
  chars! "0.864639513781818",
  chars! "0.6476567487829498",
  chars! "0.30033607122513944",
  chars! "0.14510726185247308"], [
  chars! "2398781.7449484426",
  chars! "177712.04722426867",
  chars! "177433.43265677802",
  chars! "175745.2436683843",
  chars! "12576.392469219683",
  chars! "12559.082218794056",
  chars! "12529.329330289498",
  chars! "7445.965421633007",
  chars! "4164.767371334628",
  chars! "1608.7477424547849",
  chars! "882.2024939250216",
  chars! "479.56490955190634",
  chars! "278.14789299217387",
  chars! "160.57990806598374",
  chars! "98.63446762087538",
  chars! "58.86334632894779",
  chars! "39.65142660995765",
  chars! "9.458173311289743",
  chars! "5.18899359644785",
  chars! "3.3535824089513464",
  chars! "2.286124261609574",
  chars! "1.594223015867285",
  chars! "1.1085930503356054",
  chars! "0.19696862372745658",
  chars! "0.0836843283600599",
  chars! "0.050246701810650066",
  chars! "0.03078450388916419",
  chars! "5232.697054296115",
  chars! "1917.494558846494",
  chars! "1435.3848048708674",
  chars! "647.571226748914",
  chars! "362.2689624370751",
  chars! "201.61845850282995",
  chars! "119.17045232414674",
  chars! "65.58937751714053",
  chars! "28.3582267680557",
  chars! "11.199690278125713",
  chars! "6.840029860676842",
  chars! "4.3185722432351925",
  chars! "2.8591492778139638",
  chars! "1.7892626611688842",
  chars! "1.0183929785427885",
  chars! "0.17382818211993806"]⟩

theorem fits_na_ok : fitsOk neutral_na fpi_na slsqp_na = true := by decide +kernel

/-- `mg` in `data/kl_fpi_results.json`. -/
noncomputable def fpi_mg : JEntry := ⟨chars! "mg", chars! "27", chars! "16", [
  chars! "6.856759788282603e-07",
  chars! "1.1794681541617416e-06",
  chars! "1.1903072857584957e-06",
  chars! "1.25359930492626e-05",
  chars! "5.569883519697639e-05",
  chars! "0.000215773982664878",
  chars! "0.0005601121698388914",
  chars! "0.0012793308199863529",
  chars! "0.00252651731478665",
  chars! "0.007967254763712708",
  chars! "0.017862086466545933",
  chars! "0.04353351727944957",
  chars! "0.08685885592052013",
  chars! "0.1465345931039249",
  chars! "0.20325977055880035",
  chars! "0.22793965684443618",
  chars! "0.2184673737823531",
  chars! "0.3539322530689771",
  chars! "0.633592597822236",
  chars! "0.8689775575994697",
  chars! "0.8813572996019655",
  chars! "0.6747681377909934",
  chars! "0.3743795709630571",
  chars! "0.35818335317446454",
  chars! "0.4979426361426338",
  chars! "0.47895077716769635",
  chars! "0.12288427426934079",
  chars! "0.004694005199327973",
  chars! "0.02309050290233258",
  chars! "0.02978166825568394",
  chars! "0.08439020415264692",
  chars! "0.14213802027114716",
  chars! "0.2136306469476149",
  chars! "0.25525510501141396",
  chars! "0.23353725810601747",
  chars! "0.23273353415631062",
  chars! "0.6174968609091023",
  chars! "0.9767603953638632",
  chars! "1.0589558250110591",
  chars! "0.7848053495603765",
  chars! "0.4052117061332589",
  chars! "0.27741456965530165",
  chars! "0.4580597573733016"], [
  chars! "249335.9916431118",
  chars! "247516.15681568044",
  chars! "16338.431462523855",
  chars! "15876.462155821215",
  chars! "15820.299649253382",
  chars! "15763.686072233233",
  chars! "15206.475705717105",
  chars! "5828.205894511108",
  chars! "5185.836308573432",
  chars! "1671.141578486161",
  chars! "924.5682794354971",
  chars! "492.80230439691917",
  chars! "286.5847243385035",
  chars! "167.4638380811256",
  chars! "103.51912143359303",
  chars! "63.728772979995014",
  chars! "31.278534496859596",
  chars! "9.357083352004544",
  chars! "5.543790415405384",
  chars! "3.6961520522620805",
  chars! "2.6029217926612116",
  chars! "1.8821649484142093",
  chars! "1.1381970424286445",
  chars! "0.24767433952706003",
  chars! "0.11045423963961452",
  chars! "0.10620970228821072",
  chars! "0.05931846154147133",
  chars! "6616.021575702161",
  chars! "2274.1439734799083",
  chars! "1235.1587205436556",
  chars! "665.188933475712",
  chars! "368.249090583131",
  chars! "209.3306602474661",
  chars! "123.46460211160257",
  chars! "67.33788080430104",
  chars! "20.028502058200317",
  chars! "11.415322989510274",
  chars! "7.420731299380923",
  chars! "4.78471295635676",
  chars! "3.1178625588719853",
  chars! "1.985047316740125",
  chars! "0.428547499594118",
  chars! "0.23637177309463958"]⟩

/-- `mg` in `data/kl_slsqp_results.json`. -/
noncomputable def slsqp_mg : JEntry := ⟨chars! "mg", chars! "27", chars! "16", [
  chars! "1e-12",
  chars! "3.01781125727049e-06",
  chars! "0.00031692117658341305",
  chars! "1e-12",
  chars! "1e-12",
  chars! "1.0000000071342924e-12",
  chars! "1e-12",
  chars! "1e-12",
  chars! "0.0012977801233192913",
  chars! "0.02956752737496001",
  chars! "0.01930532042226235",
  chars! "0.0964485221281093",
  chars! "0.0016831768203294157",
  chars! "0.27609844057034905",
  chars! "0.0630366342247361",
  chars! "0.4093221216840036",
  chars! "0.26831772144448757",
  chars! "0.38937437378045375",
  chars! "0.6373625691211695",
  chars! "0.8561561713626313",
  chars! "0.9082946968674938",
  chars! "0.6808116040518356",
  chars! "0.24735338431271886",
  chars! "0.37647473675923754",
  chars! "0.8746945384221032",
  chars! "0.21564316507440523",
  chars! "0.010518643951422829",
  chars! "0.0004902935587586327",
  chars! "1e-12",
  chars! "0.024611369938323507",
  chars! "0.06288248443492418",
  chars! "0.15331943209662582",
  chars! "0.1691373484957394",
  chars! "0.24753573347022284",
  chars! "0.1274824381900395",
  chars! "0.18061926860962166",
  chars! "0.6563178717717801",
  chars! "0.9489213975212581",
  chars! "1.0026030995406416",
  chars! "0.8928556039179696",
  chars! "0.39544296928342776",
  chars! "0.33243534705261363",
  chars! "0.4432711646718688"], [
  chars! "249335.99164311204",
  chars! "247516.15681554005",
  chars! "16338.431467730721",
  chars! "15876.462155845325",
  chars! "15820.299649262653",
  chars! "15763.68607232379",
  chars! "15206.475705678702",
  chars! "5828.205894295005",
  chars! "5185.836254163223",
  chars! "1671.1421922793363",
  chars! "924.5677423971476",
  chars! "492.8037220137036",
  chars! "286.58349303749907",
  chars! "167.46686712622113",
  chars! "103.51467676762157",
  chars! "63.729042026175215",
  chars! "31.29007342357258",
  chars! "9.37643575828141",
  chars! "5.538830513925496",
  chars! "3.687101987685072",
  chars! "2.593279270447282",
  chars! "1.8711399483063396",
  chars! "1.4200711024984185",
  chars! "0.35509323032229406",
  chars! "0.11387843557485575",
  chars! "0.06989756195358915",
  chars! "0.043514930857098975",
  chars! "6616.0215252064845",
  chars! "2274.1439768200266",
  chars! "1235.157518066871",
  chars! "665.1924334992226",
  chars! "368.2384739548914",
  chars! "209.34716412237518",
  chars! "123.44342672400724",
  chars! "67.34634758813374",
  chars! "19.968695328101454",
  chars! "11.594726993580204",
  chars! "7.253784961952292",
  chars! "4.897412398747255",
  chars! "3.091877971606374",
  chars! "1.795507585990569",
  chars! "0.35508394523291",
  chars! "0.22442992327062825"]⟩

theorem fits_mg_ok : fitsOk neutral_mg fpi_mg slsqp_mg = true := by decide +kernel

/-- `al` in `data/kl_fpi_results.json`. -/
noncomputable def fpi_al : JEntry := ⟨chars! "al", chars! "27", chars! "19", [
  chars! "6.288987569544962e-08",
  chars! "3.490937487125848e-07",
  chars! "1.1061325724451608e-06",
  chars! "1.9084696297249312e-07",
  chars! "1.4421746800507125e-05",
  chars! "8.142202915989556e-05",
  chars! "0.0002935270912654985",
  chars! "0.0006893279875476335",
  chars! "0.0017477034456254157",
  chars! "0.0028312451470867217",
  chars! "0.009456023915472334",
  chars! "0.02266592227507001",
  chars! "0.05160133127158835",
  chars! "0.10071930109329756",
  chars! "0.1612620166974197",
  chars! "0.2144719578176148",
  chars! "0.2264008489694014",
  chars! "0.24014618016254993",
  chars! "0.4560104666961024",
  chars! "0.7552733137633699",
  chars! "0.9297437820514577",
  chars! "0.852591838797526",
  chars! "0.5621143421200441",
  chars! "0.34184296267044817",
  chars! "0.4888667796113254",
  chars! "0.48306364730276713",
  chars! "0.43522144900495985",
  chars! "0.005188443434529038",
  chars! "0.007193684238272783",
  chars! "0.025140971447555015",
  chars! "0.04139394666665669",
  chars! "0.09312352851580866",
  chars! "0.16401193430331928",
  chars! "0.22488083901266068",
  chars! "0.2615142385043399",
  chars! "0.21215578708870297",
  chars! "0.3511947755015813",
  chars! "0.7733866568589415",
  chars! "1.091469923285804",
  chars! "1.0140654550481574",
  chars! "0.6795274838638228",
  chars! "0.16669600400014006",
  chars! "0.53038377192168",
  chars! "0.6160711339706589",
  chars! "0.3922225083960876",
  chars! "0.013267393310221037"], [
  chars! "311903.12899820035",
  chars! "311818.4983816446",
  chars! "311788.9073788998",
  chars! "310338.9505187727",
  chars! "17305.40056494104",
  chars! "17301.045132324743",
  chars! "17295.394264254403",
  chars! "17190.521435172755",
  chars! "6468.187123363208",
  chars! "4645.746578764109",
  chars! "1684.3808080739493",
  chars! "914.4252545434688",
  chars! "507.7448447360198",
  chars! "293.62127966791815",
  chars! "175.1197134261487",
  chars! "108.07043234926228",
  chars! "68.18565902941965",
  chars! "23.06090478462555",
  chars! "9.606400578600898",
  chars! "6.008674880753119",
  chars! "4.073940209331306",
  chars! "2.941076708649083",
  chars! "2.3357165352789844",
  chars! "0.45697886260299203",
  chars! "0.2476978064456703",
  chars! "0.17960837511917982",
  chars! "0.08112619628396438",
  chars! "7804.716526710693",
  chars! "2473.6562255878653",
  chars! "2423.1944645421245",
  chars! "1122.7306697983554",
  chars! "678.7588225823329",
  chars! "374.5797216047371",
  chars! "216.65932491144537",
  chars! "126.87238364502646",
  chars! "67.61521454730895",
  chars! "19.523248778162067",
  chars! "12.160044986314217",
  chars! "7.913553291365608",
  chars! "5.202243854902637",
  chars! "3.253999418353711",
  chars! "2.0727268923617235",
  chars! "0.5233044155371575",
  chars! "0.3006318212841687",
  chars! "0.168744556605562",
  chars! "0.05148555985979424"]⟩

/-- `al` in `data/kl_slsqp_results.json`. -/
noncomputable def slsqp_al : JEntry := ⟨chars! "al", chars! "27", chars! "19", [
  chars! "1e-12",
  chars! "1.0000000125363555e-12",
  chars! "1.0000000143128964e-12",
  chars! "3.0200870021547633e-06",
  chars! "0.00044232850944391275",
  chars! "1e-12",
  chars! "1.00000155276181e-12",
  chars! "1.0000000890562055e-12",
  chars! "0.0006722867975999918",
  chars! "0.0005717920986736374",
  chars! "0.02765388584607984",
  chars! "0.01682989435461184",
  chars! "0.13941531392589923",
  chars! "0.2086066197051425",
  chars! "0.1469047656570032",
  chars! "0.17668549206697912",
  chars! "0.2863613058639208",
  chars! "0.2667673608441588",
  chars! "0.4889839767324964",
  chars! "0.7524562243679087",
  chars! "0.9652227342850955",
  chars! "0.8431109211488107",
  chars! "0.5956361188082305",
  chars! "0.2506939491042061",
  chars! "1.0199517060430732",
  chars! "1.0190214689322536",
  chars! "0.07204775888991606",
  chars! "0.0007536844005072827",
  chars! "1.0000292512661313e-12",
  chars! "1.0000053125083068e-12",
  chars! "0.016462215187838806",
  chars! "0.017891011454056815",
  chars! "0.10842208114651669",
  chars! "0.2290467575294242",
  chars! "0.2573736018825964",
  chars! "0.1728572291780032",
  chars! "0.3037113261990992",
  chars! "0.8033810321566396",
  chars! "1.0390363678633778",
  chars! "1.099017842836329",
  chars! "0.5253353699590516",
  chars! "0.2085470912314493",
  chars! "0.38409770671805327",
  chars! "0.4324616786125545",
  chars! "0.12278198725411622",
  chars! "0.000790404377657778"], [
  chars! "311903.12899820035",
  chars! "311818.4983816446",
  chars! "311788.9073788998",
  chars! "310338.95051848324",
  chars! "17305.40046945177",
  chars! "17301.045132813797",
  chars! "17295.39426424685",
  chars! "17190.521435219318",
  chars! "6468.186476145516",
  chars! "4645.747285624849",
  chars! "1684.3816968976384",
  chars! "914.4267220491714",
  chars! "507.75041811526205",
  chars! "293.62206180258005",
  chars! "175.11384864733918",
  chars! "108.06572555180662",
  chars! "68.16491429233162",
  chars! "23.093228011722292",
  chars! "9.596993439739718",
  chars! "6.01979488538113",
  chars! "4.064315335264144",
  chars! "2.9278498280178193",
  chars! "2.292701188786743",
  chars! "0.4090986269756033",
  chars! "0.13005612730830163",
  chars! "0.20144836420232243",
  chars! "0.05353600445271613",
  chars! "7804.716497375365",
  chars! "2473.6562253174598",
  chars! "2423.194484747426",
  chars! "1122.7300635470358",
  chars! "678.757966792458",
  chars! "374.5817334427377",
  chars! "216.6562628642295",
  chars! "126.87556564716628",
  chars! "67.6239754804131",
  chars! "19.481619769085544",
  chars! "12.172489654511166",
  chars! "7.903225226574368",
  chars! "5.120303819382341",
  chars! "3.191118370140293",
  chars! "2.3002339947958323",
  chars! "0.5730462302215671",
  chars! "0.3494909887215748",
  chars! "0.09680269094783132",
  chars! "0.03682233700121793"]⟩

theorem fits_al_ok : fitsOk neutral_al fpi_al slsqp_al = true := by decide +kernel

/-- `si` in `data/kl_fpi_results.json`. -/
noncomputable def fpi_si : JEntry := ⟨chars! "si", chars! "27", chars! "19", [
  chars! "7.200780729226559e-08",
  chars! "3.8083478538328267e-07",
  chars! "1.164895963076526e-06",
  chars! "1.3130023393613816e-06",
  chars! "2.3400933304456234e-05",
  chars! "0.00012544328418789198",
  chars! "0.00043297426273020064",
  chars! "0.0008489257413047284",
  chars! "0.002224330992650977",
  chars! "0.0037273870183486654",
  chars! "0.011032338573950284",
  chars! "0.027924693249776967",
  chars! "0.06061407977117684",
  chars! "0.11479390845111537",
  chars! "0.17497309839177605",
  chars! "0.2253831469276365",
  chars! "0.2245309700862894",
  chars! "0.2882660646194076",
  chars! "0.5561517716412511",
  chars! "0.8477660760585379",
  chars! "0.9424511040181057",
  chars! "0.7687230789470267",
  chars! "0.378376602570787",
  chars! "0.4916860533776059",
  chars! "0.6198260307060016",
  chars! "0.5433289724178157",
  chars! "0.40222618615242345",
  chars! "0.006468610113485601",
  chars! "0.009028185797331674",
  chars! "0.026235482546851818",
  chars! "0.05466524003149173",
  chars! "0.10468002821416264",
  chars! "0.1840953868901303",
  chars! "0.23411869060174126",
  chars! "0.26998106001635025",
  chars! "0.1805425442533116",
  chars! "0.49338723082369257",
  chars! "0.9133292942709516",
  chars! "1.1435535618223671",
  chars! "0.9278412552947791",
  chars! "0.49755673402445566",
  chars! "0.4727733144089071",
  chars! "0.6821220105026397",
  chars! "0.7401609126942844",
  chars! "0.35629843647503473",
  chars! "0.01772245225164466"], [
  chars! "378263.1069903677",
  chars! "378197.8764049126",
  chars! "378175.4197358259",
  chars! "19021.915174387115",
  chars! "19006.957882889816",
  chars! "19004.629362961008",
  chars! "19001.05968311592",
  chars! "18617.30213247769",
  chars! "7333.428569977109",
  chars! "2590.5509685680154",
  chars! "1719.9260579639897",
  chars! "908.0199253123351",
  chars! "522.3862934091485",
  chars! "301.2740941899191",
  chars! "183.50432007323022",
  chars! "109.87438468414261",
  chars! "73.76122273868098",
  chars! "18.855194658441164",
  chars! "9.91609934476876",
  chars! "6.547820382275122",
  chars! "4.599083230070471",
  chars! "3.5013066297243562",
  chars! "2.3924358371352827",
  chars! "0.41727827405946555",
  chars! "0.2733757893157543",
  chars! "0.22235527259437743",
  chars! "0.10918293234636589",
  chars! "8887.482395548146",
  chars! "2778.9149779838576",
  chars! "2669.655847546276",
  chars! "1165.2592640097762",
  chars! "698.4324910902583",
  chars! "381.15750861460634",
  chars! "224.32387417479418",
  chars! "125.56256727556666",
  chars! "60.50471548332485",
  chars! "21.43449745682644",
  chars! "12.886133467220025",
  chars! "8.693189427280625",
  chars! "5.563951387974121",
  chars! "3.820373657559139",
  chars! "0.8075893894146569",
  chars! "0.5640758504317017",
  chars! "0.3305890031319214",
  chars! "0.18857818816636315",
  chars! "0.07574800059677277"]⟩

/-- `si` in `data/kl_slsqp_results.json`. -/
noncomputable def slsqp_si : JEntry := ⟨chars! "si", chars! "27", chars! "19", [
  chars! "1.0000000048388614e-12",
  chars! "1e-12",
  chars! "2.986493705320265e-06",
  chars! "0.0005232975901733592",
  chars! "1.0000002380160366e-12",
  chars! "1.0000000207067668e-12",
  chars! "1e-12",
  chars! "1e-12",
  chars! "0.000751537005941148",
  chars! "0.00649785125254297",
  chars! "0.011415033689113022",
  chars! "0.05011165620157486",
  chars! "0.12311536924453402",
  chars! "0.376641313554109",
  chars! "0.000816340935220959",
  chars! "0.47141088790356156",
  chars! "0.4075235004705846",
  chars! "0.4274318627470587",
  chars! "0.6308006644467573",
  chars! "0.8956291120406681",
  chars! "0.9575336564207717",
  chars! "0.795923977149",
  chars! "0.2441686420678027",
  chars! "0.4601940167799978",
  chars! "0.6751878040044546",
  chars! "0.6109429865137469",
  chars! "0.14852273145649345",
  chars! "0.0009101419656784831",
  chars! "0.00010545618076838087",
  chars! "1e-12",
  chars! "1.0000008854642163e-12",
  chars! "0.003589971743136159",
  chars! "0.045247049842725595",
  chars! "0.2090232427598143",
  chars! "0.05017026811911025",
  chars! "0.08888850163513018",
  chars! "0.3184636276597187",
  chars! "0.9999987997225808",
  chars! "1.0083455523210767",
  chars! "0.9248579338537519",
  chars! "0.6195896231676042",
  chars! "0.6733984343239227",
  chars! "0.8684607681882344",
  chars! "0.7270594861507013",
  chars! "0.1650623335948432",
  chars! "0.0016893856405610535"], [
  chars! "378263.1069903677",
  chars! "378197.8764049154",
  chars! "378175.4197354433",
  chars! "19021.915194678135",
  chars! "19006.957886442255",
  chars! "19004.62936655915",
  chars! "19001.05968827085",
  chars! "18617.302132424535",
  chars! "7333.4287632200885",
  chars! "2590.550975142888",
  chars! "1719.9257780561657",
  chars! "908.0202077653247",
  chars! "522.3838095391839",
  chars! "301.2807956038961",
  chars! "183.50249627816586",
  chars! "109.87551166263759",
  chars! "73.7570137533798",
  chars! "18.84658922277987",
  chars! "9.959712701503292",
  chars! "6.544210630732205",
  chars! "4.6630726908831015",
  chars! "3.4247677368296574",
  chars! "2.6792899275126683",
  chars! "0.3259448091258666",
  chars! "0.16111613742496092",
  chars! "0.3995849254411304",
  chars! "0.08349524931644016",
  chars! "8887.48235586906",
  chars! "2778.914977761994",
  chars! "2669.6558387297687",
  chars! "1165.2595308105153",
  chars! "698.4308539016608",
  chars! "381.1675478381584",
  chars! "224.3032301616294",
  chars! "125.57295363198813",
  chars! "60.509554443642884",
  chars! "21.38932513597724",
  chars! "13.095668142826321",
  chars! "8.400728590731283",
  chars! "5.8379138777548",
  chars! "3.666852820412709",
  chars! "0.7849160943956593",
  chars! "0.4564853778554234",
  chars! "0.2725408162845181",
  chars! "0.15000101340684044",
  chars! "0.05635941475850049"]⟩

theorem fits_si_ok : fitsOk neutral_si fpi_si slsqp_si = true := by decide +kernel

/-- Part 1 of the results. -/
noncomputable def fits1 : List (DataFile × JEntry × JEntry) := [
  (neutral_h, fpi_h, slsqp_h),
  (neutral_he, fpi_he, slsqp_he),
  (neutral_li, fpi_li, slsqp_li),
  (neutral_be, fpi_be, slsqp_be),
  (neutral_b, fpi_b, slsqp_b),
  (neutral_c, fpi_c, slsqp_c),
  (neutral_n, fpi_n, slsqp_n),
  (neutral_o, fpi_o, slsqp_o),
  (neutral_f, fpi_f, slsqp_f),
  (neutral_ne, fpi_ne, slsqp_ne),
  (neutral_na, fpi_na, slsqp_na),
  (neutral_mg, fpi_mg, slsqp_mg),
  (neutral_al, fpi_al, slsqp_al),
  (neutral_si, fpi_si, slsqp_si)]

theorem fits1_ok : ∀ p ∈ fits1, fitsOk p.1 p.2.1 p.2.2 = true := by
  intro p hp
  unfold fits1 at hp
  simp only [List.mem_cons, List.not_mem_nil, or_false] at hp
  rcases hp with rfl | rfl | rfl | rfl | rfl | rfl | rfl | rfl | rfl | rfl | rfl | rfl | rfl | rfl
  · exact fits_h_ok
  · exact fits_he_ok
  · exact fits_li_ok
  · exact fits_be_ok
  · exact fits_b_ok
  · exact fits_c_ok
  · exact fits_n_ok
  · exact fits_o_ok
  · exact fits_f_ok
  · exact fits_ne_ok
  · exact fits_na_ok
  · exact fits_mg_ok
  · exact fits_al_ok
  · exact fits_si_ok

end BFit.Data
