import Verif.Data.All
import Verif.Lemmas.FitsScan

/-! Copy of /repo/bfit/data/kl_fpi_results.json and kl_slsqp_results.json, generated by tools/gendata.py. -/

namespace BFit.Data

/-- `p` in `data/kl_fpi_results.json`. -/
noncomputable def fpi_p : JEntry := ⟨chars! "p", chars! "27", chars! "19", [
  chars! "2.2811130368446737e-09",
  chars! "7.09500028749769e-08",
  chars! "3.2813984324971255e-07",
  chars! "9.97739351687671e-07",
  chars! "2.926382649748842e-06",
  chars! "4.2900159409513495e-05",
  chars! "0.00022061068228764044",
  chars! "0.0007325308147175529",
  chars! "0.0009092160316997965",
  chars! "0.0024855562616580835",
  chars! "0.004757655488184015",
  chars! "0.012831292121484131",
  chars! "0.03375431218631902",
  chars! "0.07095819550028575",
  chars! "0.12869536689923483",
  chars! "0.19084443287529845",
  chars! "0.23461356123876223",
  chars! "0.23529613502743507",
  chars! "0.3530292808068733",
  chars! "0.6605432985744766",
  chars! "0.9251836969927718",
  chars! "0.9463896684881148",
  chars! "0.6706860139660739",
  chars! "0.38622440842060396",
  chars! "0.6529130343714495",
  chars! "0.7563397317535635",
  chars! "0.6249738971239444",
  chars! "0.006474455439301756",
  chars! "0.011316234901912813",
  chars! "0.02705941803472722",
  chars! "0.06899610121233413",
  chars! "0.11981005698260784",
  chars! "0.19903783153069055",
  chars! "0.252385794995505",
  chars! "0.26816467063645144",
  chars! "0.211784903387389",
  chars! "0.6273379684113959",
  chars! "1.0563320888097256",
  chars! "1.1462638375907122",
  chars! "0.8695693076438785",
  chars! "0.23521096064651126",
  chars! "0.7992625158574378",
  chars! "0.9175922542004172",
  chars! "0.8409862014204696",
  chars! "0.4127023761977829",
  chars! "0.03728390076691853"], [
  chars! "12629425.863325357",
  chars! "470055.54893035337",
  chars! "470034.193742647",
  chars! "470019.9298966695",
  chars! "23462.73405656287",
  chars! "23458.457749545072",
  chars! "23457.589326930312",
  chars! "23455.97337870348",
  chars! "11410.661868705334",
  chars! "8187.465286441815",
  chars! "2729.6238225668894",
  chars! "1671.709560183773",
  chars! "915.6779068955532",
  chars! "537.2897619731981",
  chars! "308.9720213035412",
  chars! "190.21619823912994",
  chars! "112.48362335719652",
  chars! "66.69648420889683",
  chars! "17.788091493461863",
  chars! "10.404013356788232",
  chars! "6.953313379018928",
  chars! "5.122836959190654",
  chars! "4.279039262189958",
  chars! "0.6881464053758325",
  chars! "0.39166579540890534",
  chars! "0.30166010250410136",
  chars! "0.2341844615760856",
  chars! "9894.679145909495",
  chars! "3239.3260026534904",
  chars! "2961.986392442943",
  chars! "1240.7016555410758",
  chars! "709.6577121749821",
  chars! "389.5742419248345",
  chars! "230.6799345474379",
  chars! "122.30487495907862",
  chars! "42.30429039369899",
  chars! "21.55809337364936",
  chars! "13.744726673142562",
  chars! "9.226237196259234",
  chars! "5.683045361070192",
  chars! "4.560533030147669",
  chars! "0.9436659236050815",
  chars! "0.6461978693583388",
  chars! "0.38404557315339716",
  chars! "0.1977274347979038",
  chars! "0.10949578307856406"]⟩

/-- `p` in `data/kl_slsqp_results.json`. -/
noncomputable def slsqp_p : JEntry := ⟨chars! "p", chars! "27", chars! "19", [
  chars! "1e-12",
  chars! "1.0000000520299854e-12",
  chars! "1e-12",
  chars! "2.5965948198016254e-06",
  chars! "0.00042706236562228914",
  chars! "1e-12",
  chars! "1.0000003828988212e-12",
  chars! "1.000000015131234e-12",
  chars! "1.0000002140441436e-12",
  chars! "0.0011833634028897832",
  chars! "0.0067340584290477845",
  chars! "0.05057350552320409",
  chars! "1.0000036202131612e-12",
  chars! "0.17806168956140334",
  chars! "0.21316939446966665",
  chars! "0.12219195371538391",
  chars! "0.524953902607463",
  chars! "0.3717355796061532",
  chars! "0.3563234722090515",
  chars! "0.6397685361557185",
  chars! "0.9653043713388535",
  chars! "0.9279211423359007",
  chars! "0.6760992787778402",
  chars! "0.33311682604631127",
  chars! "0.6793593631071",
  chars! "0.810052709376428",
  chars! "0.6117844886859892",
  chars! "0.0008481667717609868",
  chars! "1.0000018405506617e-12",
  chars! "1e-12",
  chars! "0.0357610569542098",
  chars! "0.03648955860138166",
  chars! "0.12264510728867349",
  chars! "0.17411085227984652",
  chars! "0.05246593170241103",
  chars! "0.17071330612213348",
  chars! "0.6939182408734736",
  chars! "0.9544420327685864",
  chars! "1.2926669333886918",
  chars! "0.7014360258088909",
  chars! "0.3682809393200104",
  chars! "0.9966101001774286",
  chars! "1.2182719697310276",
  chars! "0.669181869105349",
  chars! "0.041909191023877246",
  chars! "0.0014911757509795357"], [
  chars! "12629425.863325357",
  chars! "470055.54893035337",
  chars! "470034.193742647",
  chars! "470019.9298966523",
  chars! "23462.73405666769",
  chars! "23458.457749503923",
  chars! "23457.58932794081",
  chars! "23455.973377243525",
  chars! "11410.661868662175",
  chars! "8187.4652817779925",
  chars! "2729.623829480552",
  chars! "1671.7094991301535",
  chars! "915.6779483375301",
  chars! "537.2890545457841",
  chars! "308.97340638589435",
  chars! "190.21418553223776",
  chars! "112.48687084823123",
  chars! "66.69203828529182",
  chars! "17.784307697559996",
  chars! "10.398076079755405",
  chars! "6.959691608375384",
  chars! "5.142859246021953",
  chars! "4.218340663809623",
  chars! "0.43310497241804574",
  chars! "0.38448836085844806",
  chars! "0.16622956991173896",
  chars! "0.23507085858316276",
  chars! "9894.679133347829",
  chars! "3239.326002422994",
  chars! "2961.986377921771",
  chars! "1240.7023569625474",
  chars! "709.6556316907258",
  chars! "389.57933982559393",
  chars! "230.66965655371524",
  chars! "122.31344075605628",
  chars! "42.31888692797423",
  chars! "21.529019897930525",
  chars! "13.762232014595144",
  chars! "9.147845100472852",
  chars! "5.650137321163602",
  chars! "4.416168256319989",
  chars! "1.0059056711914203",
  chars! "0.5979701581646365",
  chars! "0.35183444269173386",
  chars! "0.11878165564580788",
  chars! "0.0737718569750525"]⟩

theorem fits_p_ok : fitsOk neutral_p fpi_p slsqp_p = true := by decide +kernel

/-- `s` in `data/kl_fpi_results.json`. -/
noncomputable def fpi_s : JEntry := ⟨chars! "s", chars! "27", chars! "19", [
  chars! "2.074947715363392e-09",
  chars! "7.793889494156798e-08",
  chars! "3.2493141044113213e-07",
  chars! "9.041201419085902e-07",
  chars! "5.049588781897903e-06",
  chars! "5.098912428224447e-05",
  chars! "0.0002445826999237585",
  chars! "0.0007636220739570338",
  chars! "0.0011664477586096087",
  chars! "0.002641992047530228",
  chars! "0.005986520844135823",
  chars! "0.014950327558759954",
  chars! "0.0399036376151635",
  chars! "0.080925871367344",
  chars! "0.14153434427162054",
  chars! "0.201584835200852",
  chars! "0.23627824310445356",
  chars! "0.2413898315415515",
  chars! "0.4308177450047802",
  chars! "0.7525242951531915",
  chars! "0.965070651385895",
  chars! "0.8999802010450192",
  chars! "0.5217148392912956",
  chars! "0.5494268921121227",
  chars! "0.7849637181744578",
  chars! "0.811369555481057",
  chars! "0.6215984946772768",
  chars! "0.006229510628705619",
  chars! "0.01547612589191783",
  chars! "0.026902057279259473",
  chars! "0.084220377091035",
  chars! "0.13278312451329177",
  chars! "0.21349580190262943",
  chars! "0.2583917163416754",
  chars! "0.2542004928760099",
  chars! "0.3029056393161226",
  chars! "0.7424566957707072",
  chars! "1.1442293693618302",
  chars! "1.0937924049199501",
  chars! "0.7279190305215939",
  chars! "0.48781451270731074",
  chars! "1.0024652265648726",
  chars! "1.0248237657199852",
  chars! "0.7669913720699009",
  chars! "0.3747029190892854",
  chars! "0.03530586118157207"], [
  chars! "14770579.259198323",
  chars! "558157.233567154",
  chars! "558098.689551054",
  chars! "558054.1094787583",
  chars! "26613.770673482293",
  chars! "26607.129822389234",
  chars! "26604.961537973108",
  chars! "26598.919281242568",
  chars! "9961.818326265065",
  chars! "9334.149491041513",
  chars! "3045.6859995035757",
  chars! "1585.9718111920981",
  chars! "936.5454815380685",
  chars! "549.935339327174",
  chars! "320.6663802080964",
  chars! "198.25774531166343",
  chars! "119.44541271167046",
  chars! "54.165271372671505",
  chars! "18.025484350414903",
  chars! "11.22551974104928",
  chars! "7.561371093338369",
  chars! "5.869908127121464",
  chars! "4.8592386647957095",
  chars! "0.6899379274907504",
  chars! "0.4536491414550107",
  chars! "0.3383831320146869",
  chars! "0.2547210419063947",
  chars! "11386.034330437633",
  chars! "3851.4640670564977",
  chars! "3153.2226810993025",
  chars! "1317.8114884031475",
  chars! "717.5143576984665",
  chars! "404.1146196226002",
  chars! "236.50902126512028",
  chars! "128.97790193676963",
  chars! "38.54421940259671",
  chars! "21.921908517160766",
  chars! "14.968552787674936",
  chars! "9.537673243328502",
  chars! "6.533653903078791",
  chars! "1.2362450870693689",
  chars! "1.0662814597894321",
  chars! "0.6752696969307965",
  chars! "0.4289765881179674",
  chars! "0.22305889226666809",
  chars! "0.12369773319498976"]⟩

/-- `s` in `data/kl_slsqp_results.json`. -/
noncomputable def slsqp_s : JEntry := ⟨chars! "s", chars! "27", chars! "19", [
  chars! "1.0000000015086912e-12",
  chars! "1e-12",
  chars! "1.0000000014612713e-12",
  chars! "2.529365402569922e-06",
  chars! "0.00042705651009745384",
  chars! "1e-12",
  chars! "1.0000002157725651e-12",
  chars! "1e-12",
  chars! "0.0010268646574917747",
  chars! "1e-12",
  chars! "0.011809354926823262",
  chars! "0.051186611409142824",
  chars! "0.03185714583980397",
  chars! "0.24253324265483478",
  chars! "0.22500065996252258",
  chars! "1e-12",
  chars! "0.24602099301965452",
  chars! "0.2310265355463219",
  chars! "0.62432671907812",
  chars! "0.8783150910013188",
  chars! "0.9573323307109705",
  chars! "0.890448793261379",
  chars! "0.5327661022357367",
  chars! "0.27471177936711244",
  chars! "0.8658526290384517",
  chars! "0.40030136566359914",
  chars! "0.5225615098469079",
  chars! "0.0008453337208062574",
  chars! "0.0003902460051606952",
  chars! "1.0000000688874566e-12",
  chars! "0.02832202108125892",
  chars! "0.058973370024407355",
  chars! "0.2099798007645567",
  chars! "0.35811442596870174",
  chars! "0.22686786572526121",
  chars! "0.17757929086189697",
  chars! "0.7394173600877778",
  chars! "0.9162629984325198",
  chars! "1.1690878181393873",
  chars! "0.8472687961212869",
  chars! "0.6769860586198402",
  chars! "0.99964130136758",
  chars! "1.613231143852848",
  chars! "0.9751716079491252",
  chars! "0.013980294199955166",
  chars! "0.00037943014728589755"], [
  chars! "14770579.259198323",
  chars! "558157.233567154",
  chars! "558098.689551054",
  chars! "558054.1094783114",
  chars! "26613.770636549903",
  chars! "26607.129823498755",
  chars! "26604.961538391493",
  chars! "26598.919280862763",
  chars! "9961.818708284543",
  chars! "9334.149489366391",
  chars! "3045.687202691785",
  chars! "1585.9709910812235",
  chars! "936.5477597259398",
  chars! "549.9337035385092",
  chars! "320.663961500909",
  chars! "198.25795947276666",
  chars! "119.44642297912635",
  chars! "54.197878876678615",
  chars! "18.114294726917073",
  chars! "11.171023199704015",
  chars! "7.659993542622025",
  chars! "5.75575647081204",
  chars! "5.0138759232343135",
  chars! "0.222066758253792",
  chars! "0.2637460840214119",
  chars! "0.15763795568277855",
  chars! "0.28097098775141477",
  chars! "11386.034827524767",
  chars! "3851.463925078715",
  chars! "3153.2235483796894",
  chars! "1317.8107559839486",
  chars! "717.5157580887387",
  chars! "404.1084011068001",
  chars! "236.4882594028134",
  chars! "128.9608730724868",
  chars! "38.36802830996274",
  chars! "22.351357607049597",
  chars! "14.443226382349417",
  chars! "10.160906767281952",
  chars! "6.13042045236709",
  chars! "1.465488042021973",
  chars! "1.1045309682752917",
  chars! "0.7489227607662483",
  chars! "0.48689160879212257",
  chars! "0.11448234765311051",
  chars! "0.07277549542588056"]⟩

theorem fits_s_ok : fitsOk neutral_s fpi_s slsqp_s = true := by decide +kernel

/-- `cl` in `data/kl_fpi_results.json`. -/
noncomputable def fpi_cl : JEntry := ⟨chars! "cl", chars! "27", chars! "19", [
  chars! "3.275115181581173e-08",
  chars! "1.774819611276481e-07",
  chars! "5.545119191612202e-07",
  chars! "3.533644278648792e-07",
  chars! "1.0025678710224185e-05",
  chars! "5.9279501743002465e-05",
  chars! "0.00022153617158337767",
  chars! "0.0005615236039773081",
  chars! "0.0014197246579467418",
  chars! "0.0027919802020125854",
  chars! "0.007879660982939745",
  chars! "0.017996357865212233",
  chars! "0.04561703510959764",
  chars! "0.09095388402292275",
  chars! "0.15269041964149127",
  chars! "0.21228557984599383",
  chars! "0.23598186671344604",
  chars! "0.27426218582058715",
  chars! "0.5258954305119687",
  chars! "0.8523762296266801",
  chars! "1.0187661758395694",
  chars! "0.8435466284750629",
  chars! "0.25259619672451183",
  chars! "0.7152782695830314",
  chars! "0.9473022860884421",
  chars! "0.8429433652400236",
  chars! "0.7061571152759734",
  chars! "0.005280942867458376",
  chars! "0.003874650473267875",
  chars! "0.025165409957210585",
  chars! "0.029191919026994615",
  chars! "0.09148213906780492",
  chars! "0.14849418389287178",
  chars! "0.2222493346766906",
  chars! "0.26915353471510955",
  chars! "0.23361897337563511",
  chars! "0.40122422826925896",
  chars! "0.8990749873872764",
  chars! "1.2072109612115414",
  chars! "1.116162182207732",
  chars! "0.5288897103382567",
  chars! "0.8342854632641012",
  chars! "1.283493448728462",
  chars! "1.3371409293305008",
  chars! "0.5985181333936299",
  chars! "0.01789499250019425"], [
  chars! "688290.4776803582",
  chars! "688162.5706553994",
  chars! "688114.507254356",
  chars! "687739.4615497333",
  chars! "32704.615952639193",
  chars! "32702.22810748197",
  chars! "32699.502909974402",
  chars! "32677.338568767947",
  chars! "10966.768497744975",
  chars! "10806.727527965546",
  chars! "3213.491472554805",
  chars! "1707.526820100649",
  chars! "954.480130259564",
  chars! "560.4863581760536",
  chars! "330.81033126325616",
  chars! "203.1282107291664",
  chars! "127.33780606986237",
  chars! "43.28462452363447",
  chars! "18.432952509737774",
  chars! "11.742471401385274",
  chars! "8.32532853025426",
  chars! "7.298814781635403",
  chars! "1.1239484320449145",
  chars! "0.596283439689637",
  chars! "0.5186070474310815",
  chars! "0.3964163107759508",
  chars! "0.20437831599357925",
  chars! "13513.066918071072",
  chars! "4450.227277254114",
  chars! "4383.760877175642",
  chars! "2407.107537765927",
  chars! "1313.778983511487",
  chars! "721.0295611995482",
  chars! "414.16581785626556",
  chars! "238.64649776678556",
  chars! "127.76532395493771",
  chars! "38.89819305278038",
  chars! "22.472549309003107",
  chars! "16.099352298685414",
  chars! "9.255617811113103",
  chars! "8.253185582899414",
  chars! "1.461418329640095",
  chars! "1.2042387021884948",
  chars! "0.6981934570414828",
  chars! "0.3877329494303749",
  chars! "0.13254717513981742"]⟩

/-- `cl` in `data/kl_slsqp_results.json`. -/
noncomputable def slsqp_cl : JEntry := ⟨chars! "cl", chars! "27", chars! "19", [
  chars! "1e-12",
  chars! "1e-12",
  chars! "1.0000000040205091e-12",
  chars! "2.153625144793848e-06",
  chars! "0.00034795534987674953",
  chars! "1e-12",
  chars! "1e-12",
  chars! "1e-12",
  chars! "1.0000013606211472e-12",
  chars! "0.001173679457737735",
  chars! "0.042352443791413764",
  chars! "0.03750762447714312",
  chars! "0.0838152579502646",
  chars! "1e-12",
  chars! "0.0010602366295549039",
  chars! "0.019052606670143926",
  chars! "0.2679060346345813",
  chars! "0.0641841763399581",
  chars! "1.0283899873855311",
  chars! "1.448333577866032",
  chars! "1.4231905739512725",
  chars! "1.3615509145487272",
  chars! "1.0000001096767224e-12",
  chars! "0.035388262741680165",
  chars! "0.3936256344125243",
  chars! "0.5209033506271916",
  chars! "0.06562664311138594",
  chars! "0.0005867391921583889",
  chars! "1.000000078957708e-12",
  chars! "1e-12",
  chars! "0.036259845285493024",
  chars! "0.11460097095153396",
  chars! "0.2595104985907554",
  chars! "0.3541464618641156",
  chars! "0.3517059372853792",
  chars! "0.19255331523635108",
  chars! "0.09663220068822617",
  chars! "0.5348677367432708",
  chars! "0.9759115711386174",
  chars! "0.12597847854732758",
  chars! "0.8344532788504221",
  chars! "1.4862490751084276",
  chars! "2.324977544908822",
  chars! "1.7970557477683011",
  chars! "0.7196064250110689",
  chars! "0.0005010022955071123"], [
  chars! "688290.4776803582",
  chars! "688162.5706553994",
  chars! "688114.507254356",
  chars! "687739.4615489491",
  chars! "32704.615517124643",
  chars! "32702.228085766958",
  chars! "32699.502910195344",
  chars! "32677.338568691906",
  chars! "10966.767844203145",
  chars! "10806.725057989968",
  chars! "3213.483845936368",
  chars! "1707.5267829226607",
  chars! "954.4801058339217",
  chars! "560.4850356011998",
  chars! "330.805580405867",
  chars! "203.13409809199388",
  chars! "127.37118420872002",
  chars! "43.31141630412796",
  chars! "18.74392651020503",
  chars! "11.484342015183552",
  chars! "8.556153511420915",
  chars! "7.001385393465427",
  chars! "0.9036889275281471",
  chars! "0.6027373729965138",
  chars! "0.19760910828600833",
  chars! "0.2550404892320341",
  chars! "0.12846701926172316",
  chars! "13513.064992009484",
  chars! "4450.227277862484",
  chars! "4383.760883644858",
  chars! "2407.1079230363944",
  chars! "1313.765765614302",
  chars! "721.0283267214589",
  chars! "414.13204900765373",
  chars! "238.65097433339827",
  chars! "127.60459103507907",
  chars! "38.36288295974417",
  chars! "23.659079939504764",
  chars! "13.982500414070655",
  chars! "9.697337853326147",
  chars! "7.311595605464019",
  chars! "1.676493770221533",
  chars! "1.0242455525331973",
  chars! "0.6376260144062729",
  chars! "0.4096670409492743",
  chars! "0.0879344921858658"]⟩

theorem fits_cl_ok : fitsOk neutral_cl fpi_cl slsqp_cl = true := by decide +kernel

/-- `ar` in `data/kl_fpi_results.json`. -/
noncomputable def fpi_ar : JEntry := ⟨chars! "ar", chars! "26", chars! "19", [
  chars! "5.260092833763817e-08",
  chars! "2.295722400254271e-07",
  chars! "6.083355603404964e-07",
  chars! "1.4870498019568838e-06",
  chars! "1.9724452416749506e-05",
  chars! "0.00010585181011230219",
  chars! "0.00036765810202581725",
  chars! "0.0007463530308681368",
  chars! "0.0018033544139201523",
  chars! "0.002075456719715206",
  chars! "0.008912638275113344",
  chars! "0.02177923261058612",
  chars! "0.05087137231553526",
  chars! "0.10124403935966389",
  chars! "0.16213247855740717",
  chars! "0.22500248953852797",
  chars! "0.23817211223735008",
  chars! "0.3181517557453547",
  chars! "0.6233619119194492",
  chars! "0.9236930330491021",
  chars! "1.0237210177044953",
  chars! "0.7410469491816982",
  chars! "0.4463428151508669",
  chars! "0.9077476059805412",
  chars! "1.1377735270764673",
  chars! "0.993584107921442",
  chars! "0.006146100295382249",
  chars! "0.008319542029315157",
  chars! "0.028678519519640802",
  chars! "0.04023584006673366",
  chars! "0.09367152008778229",
  chars! "0.16819522100103124",
  chars! "0.2249442409802937",
  chars! "0.2909513577721665",
  chars! "0.20810524221491278",
  chars! "0.5058756217333824",
  chars! "1.0674357826298435",
  chars! "1.1691148860509875",
  chars! "1.0743670498009215",
  chars! "0.12345075002808628",
  chars! "1.261963221347573",
  chars! "1.5809313311613673",
  chars! "1.485422242695145",
  chars! "0.6726084592929505",
  chars! "0.06092520844739116"], [
  chars! "890923.9042811522",
  chars! "890912.333176769",
  chars! "890906.4156780227",
  chars! "34715.181975214946",
  chars! "34713.53571543731",
  chars! "34713.08642537798",
  chars! "34712.41016381502",
  chars! "34668.6576025143",
  chars! "13424.362431414322",
  chars! "7411.675226083874",
  chars! "3142.2146787919237",
  chars! "1725.3243843919074",
  chars! "976.1503161048128",
  chars! "567.4780332006193",
  chars! "341.7928658285033",
  chars! "200.70440148560047",
  chars! "138.80173806901064",
  chars! "38.49409968740762",
  chars! "19.57229992463369",
  chars! "12.19705952926636",
  chars! "9.389554888182843",
  chars! "8.697456642012893",
  chars! "0.904750935321011",
  chars! "0.623342243582245",
  chars! "0.5297335752193115",
  chars! "0.42429392961245616",
  chars! "15906.120129262725",
  chars! "4680.275657913133",
  chars! "4666.705009632823",
  chars! "2081.455496422674",
  chars! "1341.966412115134",
  chars! "720.5237811485298",
  chars! "424.66380412806353",
  chars! "233.25029374060713",
  chars! "107.55701435886174",
  chars! "37.123812101645626",
  chars! "24.30861240408095",
  chars! "15.631575195656577",
  chars! "10.173617448367207",
  chars! "9.638855069931939",
  chars! "1.7461907312913925",
  chars! "1.365286219672443",
  chars! "0.7543154812397191",
  chars! "0.3486760432308663",
  chars! "0.18552034757967847"]⟩

/-- `ar` in `data/kl_slsqp_results.json`. -/
noncomputable def slsqp_ar : JEntry := ⟨chars! "ar", chars! "26", chars! "19", [
  chars! "1.0000000000098359e-12",
  chars! "1.0000000385061239e-12",
  chars! "1.8893280693518434e-06",
  chars! "0.0004258894536425663",
  chars! "1.000000025525324e-12",
  chars! "1e-12",
  chars! "1.000000193434943e-12",
  chars! "1e-12",
  chars! "0.0004430350530983601",
  chars! "0.0017861110886896441",
  chars! "0.022272186509377245",
  chars! "0.01498559981715545",
  chars! "0.1704560475936708",
  chars! "0.19848628200515683",
  chars! "0.08087733560383287",
  chars! "0.416108042593298",
  chars! "0.44556619372413403",
  chars! "0.4340160527673091",
  chars! "0.6380832237938273",
  chars! "0.8593149133566726",
  chars! "0.8272275119548059",
  chars! "0.5772503033154466",
  chars! "0.009993504449510448",
  chars! "0.3117391018137743",
  chars! "0.815670646283536",
  chars! "0.8307984619321943",
  chars! "0.0006480533500487756",
  chars! "1.0000060208390132e-12",
  chars! "1e-12",
  chars! "0.007447538701348579",
  chars! "1.0000036500272062e-12",
  chars! "0.0869807918986028",
  chars! "0.1825334427974045",
  chars! "0.0781378481612303",
  chars! "0.13438618897743357",
  chars! "0.5440346735668048",
  chars! "0.9787748821615917",
  chars! "1.4816482628500312",
  chars! "1.0859995343934086",
  chars! "0.33057343192929783",
  chars! "2.087844064245116",
  chars! "2.8065510007986805",
  chars! "1.5359956736040232",
  chars! "0.0028939452492448125",
  chars! "5.930180360755595e-05"], [
  chars! "890923.9042811522",
  chars! "890912.3331767627",
  chars! "890906.415676453",
  chars! "34715.18196743286",
  chars! "34713.53571796101",
  chars! "34713.086426467176",
  chars! "34712.410164602145",
  chars! "34668.65760252013",
  chars! "13424.362461062536",
  chars! "7411.67526142884",
  chars! "3142.2148204141254",
  chars! "1725.3245134634792",
  chars! "976.149972165497",
  chars! "567.4807270250328",
  chars! "341.7917995532579",
  chars! "200.7034181908876",
  chars! "138.7986404931249",
  chars! "38.48632877935538",
  chars! "19.505234750991406",
  chars! "12.33999741105476",
  chars! "9.313455117314518",
  chars! "8.7041096056034",
  chars! "0.12311559234853472",
  chars! "0.20131610209548623",
  chars! "0.3362297335831584",
  chars! "0.33124845309554507",
  chars! "15906.120132229715",
  chars! "4680.275657426199",
  chars! "4666.704993544171",
  chars! "2081.4556392874233",
  chars! "1341.9650719516173",
  chars! "720.5277678062686",
  chars! "424.6547414937086",
  chars! "233.25147695618313",
  chars! "107.56939727624234",
  chars! "37.19188772873864",
  chars! "23.935387114446083",
  chars! "16.30801971176583",
  chars! "9.591556550041469",
  chars! "9.564651760842356",
  chars! "1.8839609880100876",
  chars! "1.0983178934757967",
  chars! "0.6592277291774697",
  chars! "0.14374204314005976",
  chars! "0.08510434686582966"]⟩

theorem fits_ar_ok : fitsOk neutral_ar fpi_ar slsqp_ar = true := by decide +kernel

/-- `k` in `data/kl_fpi_results.json`. -/
noncomputable def fpi_k : JEntry := ⟨chars! "k", chars! "29", chars! "19", [
  chars! "6.456616550411535e-08",
  chars! "2.759713295231259e-07",
  chars! "7.191334575547677e-07",
  chars! "2.146711040198853e-06",
  chars! "2.6714295017832265e-05",
  chars! "0.00014039927445951464",
  chars! "0.0004784002448116611",
  chars! "0.0008633159181831346",
  chars! "0.002177924174489698",
  chars! "0.0030316669334272328",
  chars! "0.010259279755149352",
  chars! "0.025457792461260367",
  chars! "0.05765085093203298",
  chars! "0.1114639848533405",
  chars! "0.17409530367989576",
  chars! "0.23306435150991792",
  chars! "0.2440711278729297",
  chars! "0.3582522170158716",
  chars! "0.6871565643221701",
  chars! "0.9662388882085529",
  chars! "0.9742522538104792",
  chars! "0.5837884325527459",
  chars! "0.5735182300406562",
  chars! "0.9251662252286365",
  chars! "0.9731223633932083",
  chars! "0.7273538196613968",
  chars! "0.3625777658884784",
  chars! "0.7197899198126086",
  chars! "0.10630540984025037",
  chars! "0.0072873289587359405",
  chars! "0.009541459645590467",
  chars! "0.030307096725640213",
  chars! "0.04835240121592674",
  chars! "0.10361445644739406",
  chars! "0.18129272772622515",
  chars! "0.23817956366083554",
  chars! "0.2912140520595971",
  chars! "0.22734404175027229",
  chars! "0.6154923168210368",
  chars! "1.1389960418627159",
  chars! "1.1916163476713018",
  chars! "0.8887280732534617",
  chars! "0.5969640689964005",
  chars! "1.44036073425006",
  chars! "1.4545575382337792",
  chars! "1.0213591746009922",
  chars! "0.42409478531357686",
  chars! "0.27039138274449476"], [
  chars! "910383.3187384135",
  chars! "910374.0028855678",
  chars! "910369.2977810468",
  chars! "35758.18121275604",
  chars! "35757.068786617114",
  chars! "35756.73854318834",
  chars! "35756.20780716796",
  chars! "35646.33459790425",
  chars! "13997.651124703903",
  chars! "4224.538771514516",
  chars! "3224.228585583785",
  chars! "1728.6666720305095",
  chars! "997.8199404130122",
  chars! "578.1536096350058",
  chars! "352.66812976687766",
  chars! "205.09772921382742",
  chars! "132.50837203573371",
  chars! "34.650780551085575",
  chars! "20.32507254826803",
  chars! "13.223089983083682",
  chars! "11.093433285547244",
  chars! "10.147321622372203",
  chars! "1.004027799010042",
  chars! "0.7734254064039989",
  chars! "0.6316739190825309",
  chars! "0.5250512988593877",
  chars! "0.2765360715883296",
  chars! "0.05175318914820724",
  chars! "0.02986360774300577",
  chars! "16630.53546021677",
  chars! "4926.880798957969",
  chars! "4899.122115894198",
  chars! "2131.384335288618",
  chars! "1364.7518684682518",
  chars! "732.3068409412168",
  chars! "434.4069856722875",
  chars! "233.91393854179566",
  chars! "90.86684908953434",
  chars! "37.349665177066406",
  chars! "26.437536638441397",
  chars! "15.408625789395959",
  chars! "12.13053031019623",
  chars! "2.114217502739066",
  chars! "2.0341806593350484",
  chars! "1.44908266571679",
  chars! "0.9714671294091962",
  chars! "0.6540341358386914",
  chars! "0.1156786558107368"]⟩

/-- `k` in `data/kl_slsqp_results.json`. -/
noncomputable def slsqp_k : JEntry := ⟨chars! "k", chars! "29", chars! "19", [
  chars! "1.0000000102319023e-12",
  chars! "5.390646505969774e-08",
  chars! "2.1308176448792342e-06",
  chars! "0.0005182343528658579",
  chars! "3.84984015144595e-06",
  chars! "2.582328392386765e-05",
  chars! "4.673381297971134e-07",
  chars! "1.0000018235438738e-12",
  chars! "0.0007006703024036451",
  chars! "0.01091199166402214",
  chars! "0.005314502989624702",
  chars! "0.04897779650283949",
  chars! "0.08552236477373115",
  chars! "0.4360784839154652",
  chars! "0.0015042827530257932",
  chars! "0.5632252378312935",
  chars! "0.41949099738814943",
  chars! "0.8662345978106205",
  chars! "0.8223047917007906",
  chars! "0.9369452338127113",
  chars! "0.7084557026983811",
  chars! "0.0006821199096310178",
  chars! "0.0014622682949287794",
  chars! "3.530640596764918e-08",
  chars! "1.0000005644996313e-12",
  chars! "1.0000005884798737e-12",
  chars! "0.9661354401902651",
  chars! "0.07974598552318526",
  chars! "1.129289292423306e-08",
  chars! "0.0010552801185614892",
  chars! "1.0000011780141472e-12",
  chars! "1.0000015390995991e-12",
  chars! "1.0000044364437842e-12",
  chars! "1.0000050492610873e-12",
  chars! "0.00026710820870542757",
  chars! "0.18744836386132413",
  chars! "1.0000042383740518e-12",
  chars! "0.03205731667495664",
  chars! "0.46842067657004566",
  chars! "1.2804105987178274",
  chars! "1.1441332640079847",
  chars! "1.5772638895108948",
  chars! "0.7178910818983494",
  chars! "1.6349903275706918",
  chars! "2.8568066761707884",
  chars! "2.069063767606483",
  chars! "0.9059997868341437",
  chars! "0.1699552248563953"], [
  chars! "910383.3187384112",
  chars! "910374.0028855479",
  chars! "910369.2977785295",
  chars! "35758.182001427376",
  chars! "35757.06851594281",
  chars! "35756.738394567285",
  chars! "35756.20793326337",
  chars! "35646.334597243746",
  chars! "13997.64641746647",
  chars! "4224.54119048728",
  chars! "3224.221511983812",
  chars! "1728.6262845697127",
  chars! "997.803613095943",
  chars! "578.1473444783878",
  chars! "352.65949871211194",
  chars! "205.12669439928524",
  chars! "132.52976311697114",
  chars! "34.756325207604846",
  chars! "19.967173420257033",
  chars! "13.548732374670582",
  chars! "10.934061022970527",
  chars! "10.158917782922986",
  chars! "0.01886459417031346",
  chars! "0.044378599028133806",
  chars! "0.753823160277594",
  chars! "0.7405827507720527",
  chars! "0.0703668332059476",
  chars! "0.029491158380880095",
  chars! "0.15930366590191522",
  chars! "16630.532991573906",
  chars! "4926.880796928124",
  chars! "4899.122085713799",
  chars! "2131.3846459206347",
  chars! "1364.7510965044107",
  chars! "732.316402780978",
  chars! "434.26444945786756",
  chars! "233.91313541747863",
  chars! "90.85101632472657",
  chars! "37.857247552846715",
  chars! "24.43784989368494",
  chars! "17.186831287158615",
  chars! "11.343600764676674",
  chars! "2.372608447967229",
  chars! "2.252325882103633",
  chars! "1.4041415934774757",
  chars! "0.9160637958625438",
  chars! "0.5688309302201381",
  chars! "0.05193333207910008"]⟩

theorem fits_k_ok : fitsOk neutral_k fpi_k slsqp_k = true := by decide +kernel

/-- `ca` in `data/kl_fpi_results.json`. -/
noncomputable def fpi_ca : JEntry := ⟨chars! "ca", chars! "29", chars! "19", [
  chars! "6.643371022256894e-08",
  chars! "2.4715395419686717e-07",
  chars! "5.71915492204744e-07",
  chars! "5.091616256598939e-06",
  chars! "5.446801418524715e-05",
  chars! "0.0002746411544123485",
  chars! "0.0009009163503268305",
  chars! "0.0008170837727337138",
  chars! "0.002344212159707394",
  chars! "0.0036867366578551804",
  chars! "0.01117985302179716",
  chars! "0.029481099380760087",
  chars! "0.06494449775987221",
  chars! "0.121888479877872",
  chars! "0.18763218526508016",
  chars! "0.23808196976100404",
  chars! "0.2549590052744185",
  chars! "0.41698449047158576",
  chars! "0.7456065751671983",
  chars! "1.014931198640714",
  chars! "0.9279652283754899",
  chars! "0.21845626227630824",
  chars! "0.7017425729740177",
  chars! "0.986801095107436",
  chars! "0.9167264210377418",
  chars! "0.5977244567219657",
  chars! "0.545394984327109",
  chars! "0.6861343439855124",
  chars! "0.18288283479693906",
  chars! "0.007196448127355975",
  chars! "0.011013592809808577",
  chars! "0.030876807465540845",
  chars! "0.059537024769948606",
  chars! "0.11393746952266835",
  chars! "0.1934240133207758",
  chars! "0.25673150489929186",
  chars! "0.277943018271527",
  chars! "0.2565475874993557",
  chars! "0.759073628882253",
  chars! "1.133662258002444",
  chars! "1.3052943705386413",
  chars! "0.7333556726847903",
  chars! "0.9715118202808644",
  chars! "1.7354735779249655",
  chars! "1.4680145792213104",
  chars! "0.8776859288640406",
  chars! "0.432526091664099",
  chars! "0.5185930157988635"], [
  chars! "1121530.6990435387",
  chars! "1121527.0508331016",
  chars! "1121525.0499053085",
  chars! "41754.01631333123",
  chars! "41753.93902182778",
  chars! "41753.909872087446",
  chars! "41753.85408529538",
  chars! "16828.178767303914",
  chars! "15353.4234962836",
  chars! "4198.576379423923",
  chars! "3179.290072026843",
  chars! "1723.6742231695523",
  chars! "1014.74202049281",
  chars! "588.9066460577994",
  chars! "360.30644847356245",
  chars! "215.89450601874836",
  chars! "115.66664752648254",
  chars! "33.80443801414886",
  chars! "20.245736316452373",
  chars! "14.311894130087168",
  chars! "13.40350911423105",
  chars! "11.616211540061075",
  chars! "1.0216935180381939",
  chars! "0.8541213416413456",
  chars! "0.7455568810787351",
  chars! "0.5799717316632177",
  chars! "0.1553298854493473",
  chars! "0.069237465621235",
  chars! "0.043652737662547965",
  chars! "18162.661441630502",
  chars! "5464.2750581892",
  chars! "5408.912730169928",
  chars! "2265.341822969617",
  chars! "1378.117069271326",
  chars! "749.4354350561222",
  chars! "437.1746054013883",
  chars! "235.0838230410563",
  chars! "82.00651582707182",
  chars! "39.49392117911703",
  chars! "28.673068925774437",
  chars! "15.762865164687",
  chars! "15.25586288906549",
  chars! "2.4499309105929665",
  chars! "2.375778607140694",
  chars! "1.5972896539626218",
  chars! "1.1468030403420808",
  chars! "0.20741772335663508",
  chars! "0.11843042112881308"]⟩

/-- `ca` in `data/kl_slsqp_results.json`. -/
noncomputable def slsqp_ca : JEntry := ⟨chars! "ca", chars! "29", chars! "19", [
  chars! "1.0000000150263134e-12",
  chars! "1e-12",
  chars! "1.8547332142061397e-06",
  chars! "1e-12",
  chars! "1.4402066010721919e-06",
  chars! "0.00047842787036298087",
  chars! "1.0004768383025199e-12",
  chars! "1.0000000002484823e-12",
  chars! "0.0009731014014317464",
  chars! "0.01455370851720119",
  chars! "0.016102821233435163",
  chars! "0.033815848403415186",
  chars! "0.09143131332064809",
  chars! "0.5344804515797603",
  chars! "1.0000343945662217e-12",
  chars! "0.4358553459813672",
  chars! "0.2350180982752058",
  chars! "1.1956288566090567",
  chars! "1.717594453389707",
  chars! "0.0362902779178164",
  chars! "1.0000004298013867e-12",
  chars! "0.0762069868704081",
  chars! "1.0000001281595967e-12",
  chars! "0.1092372201630912",
  chars! "1.0785463393745909",
  chars! "1.0001047695399808e-12",
  chars! "0.6711405091880085",
  chars! "0.003179850497224688",
  chars! "9.999738472067528e-08",
  chars! "0.0010477917352833827",
  chars! "1.000004405436706e-12",
  chars! "1.0000019993699555e-12",
  chars! "0.013748586168628152",
  chars! "1.00000000977008e-12",
  chars! "0.0003964226663005998",
  chars! "0.25824527155625987",
  chars! "0.14254147703798012",
  chars! "1.0000400917725849e-12",
  chars! "0.4914264057601414",
  chars! "1.9034169305430897",
  chars! "1.1556915993141221",
  chars! "1.1998130873831483",
  chars! "0.9638189112433518",
  chars! "1.9907397133870413",
  chars! "3.5656885834482974",
  chars! "1.4762439305951185",
  chars! "0.20899751060379076",
  chars! "0.3776539542419759"], [
  chars! "1121530.6990435359",
  chars! "1121527.0508329836",
  chars! "1121525.0499040594",
  chars! "41754.01635709409",
  chars! "41753.93949609329",
  chars! "41753.90993520954",
  chars! "41753.85586491386",
  chars! "16828.1787641415",
  chars! "15353.424395872638",
  chars! "4198.552576951088",
  chars! "3179.317561583842",
  chars! "1723.6768674817567",
  chars! "1014.7025152224907",
  chars! "588.8883583249379",
  chars! "360.32054723321056",
  chars! "215.95508376492742",
  chars! "115.78274128171998",
  chars! "34.679766724192966",
  chars! "19.70329517089005",
  chars! "13.939604109102696",
  chars! "12.795607192525232",
  chars! "13.213891115478624",
  chars! "0.7982618553885145",
  chars! "0.04192642750074668",
  chars! "0.1346208832344316",
  chars! "0.9978613448718172",
  chars! "0.0641126489209324",
  chars! "0.027377943951583102",
  chars! "1.0001706465911935e-12",
  chars! "18162.660989266446",
  chars! "5464.275052948417",
  chars! "5408.912709749457",
  chars! "2265.351204239755",
  chars! "1378.1155461465974",
  chars! "749.4800008518098",
  chars! "437.09185238346635",
  chars! "234.91176186403405",
  chars! "81.89524113511742",
  chars! "41.208294760779204",
  chars! "24.515290847728675",
  chars! "14.121760040114623",
  chars! "14.194002394989075",
  chars! "2.6010797924487927",
  chars! "2.629692312335609",
  chars! "1.5168669037284357",
  chars! "0.8948274875006047",
  chars! "0.19576085950011526",
  chars! "0.11203277022536454"]⟩

theorem fits_ca_ok : fitsOk neutral_ca fpi_ca slsqp_ca = true := by decide +kernel

/-- `sc` in `data/kl_fpi_results.json`. -/
noncomputable def fpi_sc : JEntry := ⟨chars! "sc", chars! "30", chars! "20", [
  chars! "6.211106104372056e-08",
  chars! "2.1432510438915887e-07",
  chars! "4.210648287045712e-07",
  chars! "4.612719781261457e-07",
  chars! "8.849000352347164e-06",
  chars! "5.5457694904615005e-05",
  chars! "0.00021655905178491589",
  chars! "0.0005892463154800354",
  chars! "0.0007854170451095159",
  chars! "0.0018526698441289995",
  chars! "0.004052528723182488",
  chars! "0.012048773255648876",
  chars! "0.03380645577861687",
  chars! "0.07252278263252701",
  chars! "0.13151574642049907",
  chars! "0.1998429647874473",
  chars! "0.24134786012938084",
  chars! "0.2791015521422068",
  chars! "0.4870184555479073",
  chars! "0.8118796048939197",
  chars! "1.0424830856338767",
  chars! "0.8764776757998132",
  chars! "0.34800134236551744",
  chars! "0.8133040362149623",
  chars! "1.034686246341805",
  chars! "0.9117986035401419",
  chars! "0.6579783260716106",
  chars! "0.6085973406804326",
  chars! "0.6487215147398462",
  chars! "0.16861774623991208",
  chars! "0.0020859550669497617",
  chars! "0.005746227851124953",
  chars! "0.012727413582090168",
  chars! "0.029423413485799747",
  chars! "0.07313744142046257",
  chars! "0.12452974567963852",
  chars! "0.20244215763067705",
  chars! "0.273959966076304",
  chars! "0.26294204119309517",
  chars! "0.30748327892458066",
  chars! "0.8821462148132093",
  chars! "1.1310601588383125",
  chars! "1.3064372579649843",
  chars! "0.5428178380879355",
  chars! "1.2949368536570065",
  chars! "1.9186514498680194",
  chars! "1.464471374028164",
  chars! "0.7429464075658888",
  chars! "0.5213144707011804",
  chars! "0.5134283339005897"], [
  chars! "1420318.2254836415",
  chars! "1420317.658122408",
  chars! "1420317.2665591384",
  chars! "45182.35430791674",
  chars! "45182.144200155344",
  chars! "45182.09340040112",
  chars! "45182.048343256036",
  chars! "45181.943646153006",
  chars! "44953.93434290347",
  chars! "17920.055499086822",
  chars! "4545.8337472126905",
  chars! "2884.4185017840377",
  chars! "1737.5660094075772",
  chars! "1037.031541114141",
  chars! "601.636895379349",
  chars! "366.3628100000344",
  chars! "228.95352059242768",
  chars! "100.65234997816802",
  chars! "35.439584385823345",
  chars! "20.514820444886226",
  chars! "15.617151013172503",
  chars! "14.950517033930131",
  chars! "1.44691194251484",
  chars! "1.1397189592967891",
  chars! "0.9679831313564718",
  chars! "0.7854296454639405",
  chars! "0.4399684007970631",
  chars! "0.17048335800427364",
  chars! "0.07610718262217347",
  chars! "0.04780515146874366",
  chars! "21427.602567624726",
  chars! "21427.45815486063",
  chars! "6379.53682905644",
  chars! "6247.35359060787",
  chars! "2462.8430763050837",
  chars! "1381.344231745269",
  chars! "767.1364144164697",
  chars! "439.56306679803157",
  chars! "228.78544123066055",
  chars! "70.953224642708",
  chars! "42.22140788842586",
  chars! "29.17276734068347",
  chars! "17.441524459231623",
  chars! "17.252778917168946",
  chars! "2.765348048627802",
  chars! "2.660166501749904",
  chars! "1.6515518433793492",
  chars! "1.2263102313869734",
  chars! "0.2374245420198952",
  chars! "0.13082311871342672"]⟩

/-- `sc` in `data/kl_slsqp_results.json`. -/
noncomputable def slsqp_sc : JEntry := ⟨chars! "sc", chars! "30", chars! "20", [
  chars! "1.000000000359372e-12",
  chars! "1e-12",
  chars! "1.5574262691682682e-06",
  chars! "0.0005769461166694353",
  chars! "1.0000001171944859e-12",
  chars! "1e-12",
  chars! "1.000001027270518e-12",
  chars! "1.0000009501481751e-12",
  chars! "1.0000002387003694e-12",
  chars! "0.0005119064201153053",
  chars! "0.021294285463611",
  chars! "0.04736159865100243",
  chars! "1e-12",
  chars! "0.2020105912368011",
  chars! "0.2312398340010188",
  chars! "1.0000022091694094e-12",
  chars! "0.30511111325373536",
  chars! "0.23331905626913896",
  chars! "0.7837469047102449",
  chars! "0.8618251944694373",
  chars! "0.9142535171766311",
  chars! "0.8521992884149474",
  chars! "1e-12",
  chars! "1.0000057131418797e-12",
  chars! "0.40426874788642886",
  chars! "0.4469607299437421",
  chars! "1e-12",
  chars! "1.5405795123719286",
  chars! "0.10384775265939618",
  chars! "0.002923123216259867",
  chars! "0.0012134633743609733",
  chars! "1e-12",
  chars! "1e-12",
  chars! "1.0000002787673975e-12",
  chars! "0.04178073613098364",
  chars! "0.058090326492620116",
  chars! "0.18974199392143545",
  chars! "0.346719884621681",
  chars! "0.23009509526584815",
  chars! "0.23691646361422475",
  chars! "0.6906642783810876",
  chars! "1.5555661667569018",
  chars! "1.2747684660796774",
  chars! "0.46717029756588074",
  chars! "1.2657877657915533",
  chars! "1.8684552398235696",
  chars! "1.582480952510482",
  chars! "3.8096930994029305",
  chars! "0.24294285255513978",
  chars! "0.18589376749707348"], [
  chars! "1420318.2254836415",
  chars! "1420317.6581223279",
  chars! "1420317.2665590732",
  chars! "45182.35430739231",
  chars! "45182.14419408646",
  chars! "45182.09340748677",
  chars! "45182.04829683945",
  chars! "45181.94364654457",
  chars! "44953.93434220848",
  chars! "17920.055479481198",
  chars! "4545.834345224941",
  chars! "2884.4168144787645",
  chars! "1737.5656596589545",
  chars! "1037.029114237384",
  chars! "601.6385899484162",
  chars! "366.35717450054165",
  chars! "228.95132835868813",
  chars! "100.72726582656294",
  chars! "35.537888180870794",
  chars! "20.622534624841418",
  chars! "15.48349178572984",
  chars! "14.82650621055641",
  chars! "1.0183841797596276",
  chars! "1.6046568089897448",
  chars! "0.3512187654845231",
  chars! "0.16489057233417906",
  chars! "0.5743660634889107",
  chars! "0.10275286924219251",
  chars! "0.04600956690490509",
  chars! "0.029949964455797923",
  chars! "21427.602347775144",
  chars! "21427.458097961087",
  chars! "6379.536829817261",
  chars! "6247.353584154041",
  chars! "2462.844208808725",
  chars! "1381.3340842233451",
  chars! "767.1570033942656",
  chars! "439.5219962795152",
  chars! "228.76441030713752",
  chars! "70.47971228437568",
  chars! "42.86622880579241",
  chars! "27.93095305386818",
  chars! "15.734366102982614",
  chars! "16.445708422266005",
  chars! "3.061155632615227",
  chars! "3.0292578687778766",
  chars! "1.0172052164314875",
  chars! "1.7524971990216396",
  chars! "0.22383906877738516",
  chars! "0.0775609386194586"]⟩

theorem fits_sc_ok : fitsOk neutral_sc fpi_sc slsqp_sc = true := by decide +kernel

/-- `ti` in `data/kl_fpi_results.json`. -/
noncomputable def fpi_ti : JEntry := ⟨chars! "ti", chars! "30", chars! "20", [
  chars! "6.973833661095569e-08",
  chars! "2.619141482301004e-07",
  chars! "5.736945952627652e-07",
  chars! "4.82292073392943e-07",
  chars! "1.045454842604322e-05",
  chars! "6.547172256634276e-05",
  chars! "0.0002549217126171178",
  chars! "0.0006908506293378476",
  chars! "0.0008342774634453907",
  chars! "0.0020758518123248325",
  chars! "0.0047227879736626895",
  chars! "0.01375711206301827",
  chars! "0.03796479778457409",
  chars! "0.07964390584345399",
  chars! "0.13977228870556155",
  chars! "0.2081694517169298",
  chars! "0.2407892742914993",
  chars! "0.30431406793380933",
  chars! "0.5772687588091376",
  chars! "0.9143033978919257",
  chars! "1.0801802594064924",
  chars! "0.8251103624058823",
  chars! "0.5300925098949115",
  chars! "1.0136080248837254",
  chars! "1.1759374847029476",
  chars! "0.9680311230759358",
  chars! "0.8093594846381504",
  chars! "0.6326408404179544",
  chars! "0.6362413107037611",
  chars! "0.15331079615717016",
  chars! "0.0023877776448310863",
  chars! "0.006222652404038512",
  chars! "0.014531525915990318",
  chars! "0.03157335620989166",
  chars! "0.08170597680034376",
  chars! "0.13495637009752803",
  chars! "0.2094516719238974",
  chars! "0.28278273387887515",
  chars! "0.24472911145874404",
  chars! "0.40284513596811106",
  chars! "1.0283988076748705",
  chars! "1.2243957732378143",
  chars! "1.223154818337159",
  chars! "0.12117448888492922",
  chars! "1.5092330103429634",
  chars! "1.9412815668444332",
  chars! "1.545668180803912",
  chars! "0.6368350792009394",
  chars! "0.5046251509168971",
  chars! "0.5048955566254569"], [
  chars! "1351789.2099721017",
  chars! "1351788.4246767233",
  chars! "1351787.9218114943",
  chars! "46739.8840118478",
  chars! "46739.54387129853",
  chars! "46739.47642115172",
  chars! "46739.417066557144",
  chars! "46739.27591182033",
  chars! "45643.21247986933",
  chars! "18258.969604059526",
  chars! "4771.761455838323",
  chars! "2882.0589763948237",
  chars! "1765.60354925886",
  chars! "1059.2027113791873",
  chars! "616.9453890696217",
  chars! "374.0297902886791",
  chars! "244.25684783133113",
  chars! "88.33388117247439",
  chars! "36.23316621193203",
  chars! "22.274848098431395",
  chars! "17.566084076698",
  chars! "16.355848619018335",
  chars! "1.5793645020211327",
  chars! "1.322048748256898",
  chars! "1.1635533857756397",
  chars! "0.8343232718205326",
  chars! "0.4246482777961188",
  chars! "0.18236944603920555",
  chars! "0.08100698325267909",
  chars! "0.05069045714321544",
  chars! "22081.937582279246",
  chars! "22081.7156287313",
  chars! "6629.381226784866",
  chars! "6436.5144595408065",
  chars! "2526.807002501357",
  chars! "1396.1565058076187",
  chars! "782.702794673977",
  chars! "444.3755655579988",
  chars! "223.6240924500126",
  chars! "62.007550975413565",
  chars! "43.470005119087645",
  chars! "25.76885698707051",
  chars! "18.828454185733897",
  chars! "3.6406832742570585",
  chars! "3.252393413732407",
  chars! "2.805742769253403",
  chars! "1.7539783765105867",
  chars! "1.145263620101697",
  chars! "0.2616151008174679",
  chars! "0.1426100306157433"]⟩

/-- `ti` in `data/kl_slsqp_results.json`. -/
noncomputable def slsqp_ti : JEntry := ⟨chars! "ti", chars! "30", chars! "20", [
  chars! "1e-12",
  chars! "1.0000000278535732e-12",
  chars! "1.9752058261936884e-06",
  chars! "0.0006201087801416058",
  chars! "1.0000266772477529e-12",
  chars! "1e-12",
  chars! "1.0000107652830432e-12",
  chars! "1e-12",
  chars! "1e-12",
  chars! "0.000665221069452795",
  chars! "0.024307336370004713",
  chars! "0.0614973418773282",
  chars! "0.005398041822078694",
  chars! "0.12297306347915866",
  chars! "0.11420316953698878",
  chars! "0.41912038031313864",
  chars! "0.4777301669615233",
  chars! "0.23977351502324548",
  chars! "0.6602106198521693",
  chars! "2.7565422444074548",
  chars! "0.002497257584240226",
  chars! "1e-12",
  chars! "1.0000026413054061e-12",
  chars! "0.6242959053590876",
  chars! "0.05402922540328007",
  chars! "1e-12",
  chars! "1.11547442832611",
  chars! "1.030716352043882",
  chars! "0.10935097166105572",
  chars! "0.0033037650931971615",
  chars! "0.0007515597942055792",
  chars! "0.00048729547594096557",
  chars! "1.0000016868495504e-12",
  chars! "1e-12",
  chars! "0.05204135634685966",
  chars! "0.08751221265146027",
  chars! "0.12355337378101261",
  chars! "0.06881510217623318",
  chars! "0.14518134083286705",
  chars! "0.35674892224504934",
  chars! "0.6497629759571749",
  chars! "1.0645930573268605",
  chars! "2.1100828895671078",
  chars! "0.22107968742864673",
  chars! "1.6212205969869216",
  chars! "1.3726825920130932",
  chars! "4.043599485618972",
  chars! "1.7972649274513126",
  chars! "0.265920220305464",
  chars! "0.19599797656278878"], [
  chars! "1351789.2099720524",
  chars! "1351788.4246764844",
  chars! "1351787.9218108766",
  chars! "46739.88415291378",
  chars! "46739.54397164591",
  chars! "46739.47642852544",
  chars! "46739.41707314766",
  chars! "46739.2759337221",
  chars! "45643.212479996444",
  chars! "18258.96313552118",
  chars! "4771.76027774751",
  chars! "2882.02140648595",
  chars! "1765.5773517018094",
  chars! "1059.2074525406047",
  chars! "616.9812754858026",
  chars! "373.8051386425798",
  chars! "244.58585830708247",
  chars! "88.17294651243836",
  chars! "35.65985505928691",
  chars! "22.888534670145635",
  chars! "17.433897516573698",
  chars! "15.986434037371598",
  chars! "0.6560213712147845",
  chars! "0.504857295164903",
  chars! "0.1578053458410114",
  chars! "0.6437945886054298",
  chars! "0.12556535711114125",
  chars! "0.19177148814094358",
  chars! "0.0498867084848394",
  chars! "0.032349692667903766",
  chars! "22081.949212841988",
  chars! "22081.715346100733",
  chars! "6629.381225842123",
  chars! "6436.514451408378",
  chars! "2526.809855086329",
  chars! "1396.1509915710128",
  chars! "782.6562095966415",
  chars! "444.4112841002395",
  chars! "223.51503563203136",
  chars! "62.11862108497048",
  chars! "40.999987366162806",
  chars! "28.87459629790437",
  chars! "17.876931177204824",
  chars! "3.4488074115350225",
  chars! "3.5060718445088424",
  chars! "3.552704934672667",
  chars! "2.03364397243185",
  chars! "1.1791115754461738",
  chars! "0.12165754405387304",
  chars! "0.08498079341241735"]⟩

theorem fits_ti_ok : fitsOk neutral_ti fpi_ti slsqp_ti = true := by decide +kernel

/-- `v` in `data/kl_fpi_results.json`. -/
noncomputable def fpi_v : JEntry := ⟨chars! "v", chars! "30", chars! "20", [
  chars! "3.4369748742448514e-08",
  chars! "1.525736404100347e-07",
  chars! "4.086306097562349e-07",
  chars! "5.58566155440877e-07",
  chars! "1.4922305537538238e-05",
  chars! "8.949125890322183e-05",
  chars! "0.0003391445560754505",
  chars! "0.0008908542573190974",
  chars! "0.0010266085368100585",
  chars! "0.0020702935767871384",
  chars! "0.005394475432095913",
  chars! "0.015370665127561576",
  chars! "0.04247855929688698",
  chars! "0.08724435689673452",
  chars! "0.1485717360065673",
  chars! "0.21601236510333335",
  chars! "0.2433442726818433",
  chars! "0.314313334984562",
  chars! "0.6130867504956402",
  chars! "0.9395539383701078",
  chars! "1.0466858926466567",
  chars! "0.7120098259567006",
  chars! "0.6882988852834465",
  chars! "1.18858741640626",
  chars! "1.3032481648806291",
  chars! "1.0022154440068256",
  chars! "0.7554437010492926",
  chars! "0.6250310660252427",
  chars! "0.6009344953966429",
  chars! "0.1417331866937105",
  chars! "0.002945751028075089",
  chars! "0.004664554189975676",
  chars! "0.018914119979083495",
  chars! "0.02833442579414085",
  chars! "0.09451851580429864",
  chars! "0.14593012862295474",
  chars! "0.21739606439382778",
  chars! "0.28839218513232573",
  chars! "0.24015253700126976",
  chars! "0.4715108973518563",
  chars! "1.061313453127655",
  chars! "1.2476593897932733",
  chars! "1.0875416337668105",
  chars! "0.6244381453555965",
  chars! "1.7511559272229653",
  chars! "1.894964919394942",
  chars! "1.5231113573185842",
  chars! "0.5843802899019204",
  chars! "0.5365074997701974",
  chars! "0.4821772036779206"], [
  chars! "1872867.5044595213",
  chars! "1872866.2077232536",
  chars! "1872865.4977043257",
  chars! "56814.46800301618",
  chars! "56814.111243615174",
  chars! "56814.0672361813",
  chars! "56814.02234676048",
  chars! "56813.84628352515",
  chars! "21221.16886887845",
  chars! "20915.36213223948",
  chars! "5441.725649041882",
  chars! "2721.9855451738113",
  chars! "1787.0861005882125",
  chars! "1079.9420818588756",
  chars! "633.895130748359",
  chars! "382.41205828865526",
  chars! "249.8910422480179",
  chars! "81.41190495606142",
  chars! "37.471576860022076",
  chars! "23.42137552612669",
  chars! "19.42111611586728",
  chars! "17.840669291298962",
  chars! "1.8169167574385294",
  chars! "1.4110986987971852",
  chars! "1.2510996230052827",
  chars! "1.0077554810440608",
  chars! "0.4219123297837533",
  chars! "0.1879681274416979",
  chars! "0.08538676355212112",
  chars! "0.05333076771691096",
  chars! "25101.937059407366",
  chars! "25101.680779151044",
  chars! "7639.535951303932",
  chars! "7062.2232329023245",
  chars! "2697.6802449294755",
  chars! "1406.9808081717238",
  chars! "800.8746310257646",
  chars! "451.99396398507986",
  chars! "218.59106879253366",
  chars! "65.2011480786648",
  chars! "46.92608921686231",
  chars! "27.37702091757584",
  chars! "21.275688864118784",
  chars! "3.8459076882665872",
  chars! "3.727072088937332",
  chars! "2.7520002929576357",
  chars! "1.7424689084034064",
  chars! "0.9039089817961329",
  chars! "0.28325324881406366",
  chars! "0.15037004434961448"]⟩

/-- `v` in `data/kl_slsqp_results.json`. -/
noncomputable def slsqp_v : JEntry := ⟨chars! "v", chars! "30", chars! "20", [
  chars! "1e-12",
  chars! "1.0000000731459258e-12",
  chars! "1.390072263187884e-06",
  chars! "0.000471243309345633",
  chars! "1.0000197245997341e-12",
  chars! "9.99999999392329e-13",
  chars! "1.0000378182240606e-12",
  chars! "1.000000893742481e-12",
  chars! "1.00000084732605e-12",
  chars! "0.0008645248108916386",
  chars! "0.021597527673033915",
  chars! "0.052285902586038956",
  chars! "0.1470420869823179",
  chars! "1e-12",
  chars! "0.01688471656461114",
  chars! "0.45987398217819875",
  chars! "0.5787142310917449",
  chars! "1e-12",
  chars! "1.1198555336571037",
  chars! "1.9520157106887153",
  chars! "1.4218950366531584",
  chars! "1.809052928091749",
  chars! "1e-12",
  chars! "0.39383170567764003",
  chars! "0.6007497720355179",
  chars! "1.0000085324027263e-12",
  chars! "1.0191854706733976",
  chars! "0.7982284015475308",
  chars! "0.15953788301357769",
  chars! "0.005917596782965339",
  chars! "0.0003445869744622888",
  chars! "0.0006640754615049639",
  chars! "1e-12",
  chars! "1.000003838416652e-12",
  chars! "0.025111902441115698",
  chars! "0.16442521824386028",
  chars! "0.17554360067091374",
  chars! "1.0000012710888925e-12",
  chars! "0.07027373693718889",
  chars! "0.03496344010469061",
  chars! "0.44990420285880856",
  chars! "0.34950395648664834",
  chars! "0.7032992932771074",
  chars! "1.0604989017121476",
  chars! "2.188794619377522",
  chars! "2.2796897869755477",
  chars! "2.131018820947477",
  chars! "1.9708726883900711",
  chars! "0.5779110660055224",
  chars! "0.25918620773702783"], [
  chars! "1872867.5044595203",
  chars! "1872866.2077232383",
  chars! "1872865.4977042973",
  chars! "56814.46808063243",
  chars! "56814.1112401971",
  chars! "56814.067239787015",
  chars! "56814.022350731226",
  chars! "56813.846283901",
  chars! "21221.168870454938",
  chars! "20915.362233453885",
  chars! "5441.72564574056",
  chars! "2721.985796955779",
  chars! "1787.0862128274434",
  chars! "1079.9430163133868",
  chars! "633.8961264294304",
  chars! "382.4163921984136",
  chars! "249.90291643748932",
  chars! "81.29770818156955",
  chars! "37.145363619257104",
  chars! "23.856977475621644",
  chars! "19.131955014017002",
  chars! "17.25177697633622",
  chars! "0.94869860574265",
  chars! "0.5835141978556441",
  chars! "0.5841437122268979",
  chars! "0.7199646457648992",
  chars! "0.21873706297862724",
  chars! "0.18422526596591626",
  chars! "0.05666824953335491",
  chars! "0.036138573668544144",
  chars! "25101.937280325186",
  chars! "25101.68061028273",
  chars! "7639.5359520749735",
  chars! "7062.223225006744",
  chars! "2697.68104588791",
  chars! "1406.984972867641",
  chars! "800.8678935483379",
  chars! "451.9935583003623",
  chars! "218.60245311685915",
  chars! "65.243344151715",
  chars! "45.60031600754127",
  chars! "28.62022145957586",
  chars! "18.51258954671119",
  chars! "4.07715137797004",
  chars! "4.040952224037097",
  chars! "2.2123266053098516",
  chars! "2.4710575316211636",
  chars! "1.3426934348212742",
  chars! "0.1521860266502934",
  chars! "0.09958474873009864"]⟩

theorem fits_v_ok : fitsOk neutral_v fpi_v slsqp_v = true := by decide +kernel

/-- `cr` in `data/kl_fpi_results.json`. -/
noncomputable def fpi_cr : JEntry := ⟨chars! "cr", chars! "30", chars! "20", [
  chars! "1.8697901357532684e-05",
  chars! "2.8263979974929605e-05",
  chars! "1.7159186815987696e-07",
  chars! "3.1829967496305265e-06",
  chars! "2.0776258302075752e-05",
  chars! "8.378595011496737e-05",
  chars! "0.00023745362368950086",
  chars! "0.00045667695078490815",
  chars! "0.0009388547032764296",
  chars! "0.0018579754908253352",
  chars! "0.006287181662969137",
  chars! "0.01732951446318517",
  chars! "0.047170420492803664",
  chars! "0.09454217045790585",
  chars! "0.1576953432542456",
  chars! "0.2233582929075332",
  chars! "0.24675157546573073",
  chars! "0.33819106358152945",
  chars! "0.6560152526963904",
  chars! "0.9705924558668177",
  chars! "1.0171932890102229",
  chars! "0.5542751509311261",
  chars! "0.8935760227757191",
  chars! "1.3902496568608267",
  chars! "1.4904742198654084",
  chars! "1.1659490588624934",
  chars! "0.8023524321153149",
  chars! "0.6485519242828711",
  chars! "0.5801615910023211",
  chars! "0.0943695790132186",
  chars! "0.0006273410165442723",
  chars! "0.0038836247135392256",
  chars! "0.00477950176983654",
  chars! "0.02351178871181874",
  chars! "0.02890544394222303",
  chars! "0.10474995675202116",
  chars! "0.1550687608865219",
  chars! "0.22792837929464502",
  chars! "0.29144623557885235",
  chars! "0.23843341676369872",
  chars! "0.5528490125825768",
  chars! "1.0941874414674113",
  chars! "1.277770105156723",
  chars! "0.9578602401200004",
  chars! "0.9358584213211187",
  chars! "2.005017737659562",
  chars! "1.9837679206758976",
  chars! "1.5242726969726499",
  chars! "0.755703228075114",
  chars! "0.4346467115236696"], [
  chars! "284568.8895603087",
  chars! "284568.80805108394",
  chars! "77836.4716141596",
  chars! "77120.28360058638",
  chars! "76992.91989571272",
  chars! "76903.61153570897",
  chars! "76764.77421192707",
  chars! "75692.09683332746",
  chars! "21502.67490736629",
  chars! "21234.343399409245",
  chars! "5786.657722934937",
  chars! "2726.2450508803095",
  chars! "1817.8512224743438",
  chars! "1096.7301403225479",
  chars! "648.9657561575528",
  chars! "389.70936623116387",
  chars! "251.60320866364725",
  chars! "72.73249363444475",
  chars! "38.113584836903556",
  chars! "25.28317159361645",
  chars! "21.204785430433176",
  chars! "17.809479058571",
  chars! "2.212912705127976",
  chars! "1.5759551233192777",
  chars! "1.2670758812315948",
  chars! "0.9232147808027055",
  chars! "0.49221421716996117",
  chars! "0.16200929236713846",
  chars! "0.09535468225234114",
  chars! "0.05260806000372273",
  chars! "91841.55557174142",
  chars! "26602.789997487656",
  chars! "26601.627160502052",
  chars! "8153.9732704380895",
  chars! "6932.119390775641",
  chars! "2739.043892652697",
  chars! "1420.0867118104543",
  chars! "814.8374020207559",
  chars! "455.30865859026",
  chars! "210.70920332751447",
  chars! "70.59815932331774",
  chars! "49.12648110873181",
  chars! "29.285851588488278",
  chars! "23.435392931907533",
  chars! "4.28295216317095",
  chars! "4.067387493284393",
  chars! "2.683612455635847",
  chars! "1.7023572725543352",
  chars! "0.8110381127765572",
  chars! "0.3500979996778355"]⟩

/-- `cr` in `data/kl_slsqp_results.json`. -/
noncomputable def slsqp_cr : JEntry := ⟨chars! "cr", chars! "30", chars! "20", [
  chars! "2.3303475238970664e-06",
  chars! "2.060858736228237e-05",
  chars! "1e-12",
  chars! "1.0000001920103944e-12",
  chars! "1.0000004642908863e-12",
  chars! "1.000000028110906e-12",
  chars! "1e-12",
  chars! "0.00018857863681976303",
  chars! "1.0000017322412673e-12",
  chars! "0.0015196643871008117",
  chars! "0.021957810092006515",
  chars! "0.05633998265951976",
  chars! "0.18210582842722367",
  chars! "1.0000376297555111e-12",
  chars! "1e-12",
  chars! "0.47263394141533527",
  chars! "0.5545454058927433",
  chars! "0.1533281235415826",
  chars! "0.9627605486225683",
  chars! "1.6508562231820392",
  chars! "1.405125527986046",
  chars! "2.19641541261094",
  chars! "1e-12",
  chars! "0.646167459158475",
  chars! "1.1155766756224208",
  chars! "0.7585235176512584",
  chars! "0.28807251049383226",
  chars! "0.7339171063885808",
  chars! "0.5608158368082726",
  chars! "0.006966517869149385",
  chars! "0.00010359273205930768",
  chars! "1.0000021842541467e-12",
  chars! "0.0006335614591725942",
  chars! "1e-12",
  chars! "1.000003135585129e-12",
  chars! "0.020441236276835018",
  chars! "0.1822791539493396",
  chars! "0.1972722639344956",
  chars! "1.0000043901371672e-12",
  chars! "0.03426175831886445",
  chars! "0.1604943476359152",
  chars! "0.6158919329478015",
  chars! "0.31862525271114567",
  chars! "0.3744143342850698",
  chars! "1.0162228361684686",
  chars! "2.110433090680074",
  chars! "4.382246566081831",
  chars! "2.402741959795945",
  chars! "0.37537111622815283",
  chars! "0.04073425302797303"], [
  chars! "284568.889563032",
  chars! "284568.80804436316",
  chars! "77836.47161410775",
  chars! "77120.28360057063",
  chars! "76992.91989661212",
  chars! "76903.61153569794",
  chars! "76764.77421196696",
  chars! "75692.09683461003",
  chars! "21502.674928772918",
  chars! "21234.342764985664",
  chars! "5786.658747180922",
  chars! "2726.250438331759",
  chars! "1817.8622952622577",
  chars! "1096.729711965773",
  chars! "648.9746504615237",
  chars! "389.69691598817883",
  chars! "251.61333195072547",
  chars! "72.76906477889013",
  chars! "37.84854461945835",
  chars! "25.561444748299845",
  chars! "21.0796162384834",
  chars! "17.46396534785775",
  chars! "0.8962518674640387",
  chars! "0.6420929761472302",
  chars! "0.6617907183350558",
  chars! "0.6997621786294247",
  chars! "0.2400978062196363",
  chars! "0.1600450602741006",
  chars! "0.09138207788784386",
  chars! "0.03750511927923049",
  chars! "91841.55556389825",
  chars! "26602.789994687762",
  chars! "26601.628213359836",
  chars! "8153.973270110414",
  chars! "6932.119347996052",
  chars! "2739.0422695754287",
  chars! "1420.0872873789174",
  chars! "814.8283824965175",
  chars! "455.30767509474856",
  chars! "210.71086699596185",
  chars! "70.72232157521408",
  chars! "47.73795249625074",
  chars! "30.262240334595287",
  chars! "21.68318544315148",
  chars! "4.5561506857476415",
  chars! "4.695353612673766",
  chars! "2.7152487734388404",
  chars! "1.5823262699588074",
  chars! "0.4204637376943595",
  chars! "0.0658933656775958"]⟩

theorem fits_cr_ok : fitsOk neutral_cr fpi_cr slsqp_cr = true := by decide +kernel

/-- `mn` in `data/kl_fpi_results.json`. -/
noncomputable def fpi_mn : JEntry := ⟨chars! "mn", chars! "30", chars! "20", [
  chars! "2.498371872580577e-07",
  chars! "2.222527192867413e-07",
  chars! "4.140043034057704e-07",
  chars! "6.8838752702224695e-06",
  chars! "4.389359089384555e-05",
  chars! "0.0001744444698905974",
  chars! "0.00048695594161331603",
  chars! "0.0008990995474708413",
  chars! "0.0016798633842215792",
  chars! "0.0021205224627874916",
  chars! "0.008036024580565036",
  chars! "0.02015804957322374",
  chars! "0.050249820278669734",
  chars! "0.10099793141481689",
  chars! "0.16554792743013716",
  chars! "0.23017976128044723",
  chars! "0.2520850057251616",
  chars! "0.38147484130662396",
  chars! "0.7247960972682144",
  chars! "1.0415367062185759",
  chars! "1.0278547899445258",
  chars! "0.3507768719897096",
  chars! "1.0315356969025615",
  chars! "1.4841478706045432",
  chars! "1.4871274278644389",
  chars! "1.091944967964606",
  chars! "0.7620981464480799",
  chars! "0.7221777831843943",
  chars! "0.6659725079252301",
  chars! "0.15456038736866412",
  chars! "0.0015703770277166293",
  chars! "0.006465458360210341",
  chars! "0.009753267849931567",
  chars! "0.03467189059804782",
  chars! "0.03744219387445501",
  chars! "0.0983870532780015",
  chars! "0.16802766934303887",
  chars! "0.2361778757781938",
  chars! "0.29592717061668133",
  chars! "0.24066323652491675",
  chars! "0.6759717585394307",
  chars! "1.1652222794181577",
  chars! "1.3791140377887272",
  chars! "0.8704547666086592",
  chars! "1.202536466724717",
  chars! "2.201507678830109",
  chars! "2.035206618265598",
  chars! "1.3817984658879021",
  chars! "0.6153653489005538",
  chars! "0.5850652209905582"], [
  chars! "2547365.042907268",
  chars! "2547364.916365755",
  chars! "66181.92698008944",
  chars! "66181.91112630015",
  chars! "66181.90601504438",
  chars! "66181.90168818149",
  chars! "66181.89318545179",
  chars! "66181.48205027264",
  chars! "26476.91772642429",
  chars! "6264.411684025147",
  chars! "5633.848251360251",
  chars! "3169.9847300740266",
  chars! "1847.7477663266957",
  chars! "1092.7401617799478",
  chars! "661.0142495676429",
  chars! "391.7196525117099",
  chars! "247.76037759469187",
  chars! "66.55066933305682",
  chars! "38.27586401449506",
  chars! "26.512635612273023",
  chars! "23.431495138494988",
  chars! "3.973916786919387",
  chars! "2.2873552700453392",
  chars! "1.7119628877368758",
  chars! "1.3509204758492406",
  chars! "1.008900640203981",
  chars! "0.39464287867400255",
  chars! "0.13253448053392197",
  chars! "0.10280956634849722",
  chars! "0.05945567469913028",
  chars! "30858.212757026096",
  chars! "30858.201302531757",
  chars! "8765.46472461191",
  chars! "8763.751388043134",
  chars! "3783.8256449583196",
  chars! "2625.260261046271",
  chars! "1403.8152718486313",
  chars! "824.356155740765",
  chars! "451.45081527576207",
  chars! "194.4322637409968",
  chars! "74.68561852319822",
  chars! "51.26236873270926",
  chars! "29.808375982971473",
  chars! "26.651992160629288",
  chars! "4.711861026332162",
  chars! "4.3746495413682736",
  chars! "2.825941712549741",
  chars! "1.824199784540962",
  chars! "0.831145788984714",
  chars! "0.28615409405177716"]⟩

/-- `mn` in `data/kl_slsqp_results.json`. -/
noncomputable def slsqp_mn : JEntry := ⟨chars! "mn", chars! "30", chars! "20", [
  chars! "6.077107738201596e-08",
  chars! "1.0955880613325523e-06",
  chars! "1e-12",
  chars! "1.0000135368702814e-12",
  chars! "0.0005525061292307436",
  chars! "1.0000073414793993e-12",
  chars! "1e-12",
  chars! "1.0000033691926617e-12",
  chars! "0.0005198612397471821",
  chars! "0.025776358415967655",
  chars! "1.0000085609388368e-12",
  chars! "0.016723348099069692",
  chars! "0.2225219223053155",
  chars! "0.09606034635189552",
  chars! "1e-12",
  chars! "0.5379652678498349",
  chars! "0.46772465144502406",
  chars! "0.0001600135059949594",
  chars! "1.7518304298827507",
  chars! "1.9538798093981584",
  chars! "2.5298202952926365",
  chars! "0.005573805673888953",
  chars! "0.10201953630440545",
  chars! "0.9421984787079147",
  chars! "0.8130957930293068",
  chars! "0.09411540091559198",
  chars! "0.7831337235114135",
  chars! "1.6588481315777739",
  chars! "0.21602252668500374",
  chars! "0.009618746540872785",
  chars! "1.0000020661527203e-12",
  chars! "0.0012303842554589124",
  chars! "1.0000017813566102e-12",
  chars! "1e-12",
  chars! "0.012645424609032906",
  chars! "1e-12",
  chars! "0.14454503116360695",
  chars! "0.19511480116680952",
  chars! "1e-12",
  chars! "0.009141005157815792",
  chars! "0.20149733588983532",
  chars! "0.39003887706409446",
  chars! "0.21417675696788285",
  chars! "0.7837086766118145",
  chars! "1.1137858696545795",
  chars! "2.0277707899585744",
  chars! "4.312549710835847",
  chars! "1.767643499254732",
  chars! "1.3045176991339982",
  chars! "0.29348506253990664"], [
  chars! "2547365.042907259",
  chars! "2547364.916365714",
  chars! "66181.9269695509",
  chars! "66181.91114738474",
  chars! "66181.90598224828",
  chars! "66181.90168601816",
  chars! "66181.8931809681",
  chars! "66181.48205086132",
  chars! "26476.91824509701",
  chars! "6264.41043711554",
  chars! "5633.848143837108",
  chars! "3169.985250873714",
  chars! "1847.7375416531088",
  chars! "1092.7373576171394",
  chars! "661.0128328318222",
  chars! "391.69474927159075",
  chars! "247.81090907830236",
  chars! "66.73054077317786",
  chars! "37.81444506240601",
  chars! "26.71054977442749",
  chars! "22.435961006232503",
  chars! "3.846846546937727",
  chars! "0.7236916296185546",
  chars! "0.8556022066759816",
  chars! "0.7490804692490605",
  chars! "2.537429385367955",
  chars! "0.32267804506168907",
  chars! "0.1642065461275346",
  chars! "0.06690373632384179",
  chars! "0.04177898618336826",
  chars! "30858.212428202234",
  chars! "30858.200680832408",
  chars! "8765.464724380638",
  chars! "8763.751378625535",
  chars! "3783.825479487257",
  chars! "2625.2590396955998",
  chars! "1403.825236780942",
  chars! "824.3365710756068",
  chars! "451.4446328349877",
  chars! "194.41852972202813",
  chars! "74.82905414089946",
  chars! "48.47983719228876",
  chars! "29.745236929836036",
  chars! "22.19915918989131",
  chars! "5.110150852524191",
  chars! "5.418383617094804",
  chars! "3.185439100596616",
  chars! "2.0970477334526705",
  chars! "1.6316154003901226",
  chars! "0.12068321571096936"]⟩

theorem fits_mn_ok : fitsOk neutral_mn fpi_mn slsqp_mn = true := by decide +kernel

/-- `fe` in `data/kl_fpi_results.json`. -/
noncomputable def fpi_fe : JEntry := ⟨chars! "fe", chars! "31", chars! "20", [
  chars! "9.288695059864905e-08",
  chars! "2.340624835119785e-07",
  chars! "2.657464438793458e-07",
  chars! "4.6886861466554586e-07",
  chars! "7.71769302399582e-06",
  chars! "4.910759977209025e-05",
  chars! "0.00019470063384172055",
  chars! "0.0005416267022817245",
  chars! "0.000987089704252593",
  chars! "0.0018565200622976783",
  chars! "0.002545494589386975",
  chars! "0.009028124195605692",
  chars! "0.02260701025602115",
  chars! "0.055230215837646555",
  chars! "0.10803971229557989",
  chars! "0.1755282175466552",
  chars! "0.23582982793483775",
  chars! "0.2582799150229091",
  chars! "0.41039588782373465",
  chars! "0.7526690812242652",
  chars! "1.0430129608729977",
  chars! "0.9703114847379474",
  chars! "0.5801107097522048",
  chars! "1.238523183268489",
  chars! "1.6418202036903087",
  chars! "1.5516489789066061",
  chars! "1.1226341779360007",
  chars! "0.7699779405562862",
  chars! "0.7092528019382148",
  chars! "0.6304251876292378",
  chars! "0.14525000923152825",
  chars! "0.0017673074873076186",
  chars! "0.0070279624456059415",
  chars! "0.011038318172571115",
  chars! "0.03753540065893004",
  chars! "0.04242310523459563",
  chars! "0.10704394585807023",
  chars! "0.17533459239602278",
  chars! "0.2511989517986699",
  chars! "0.2920474827074318",
  chars! "0.23624040784268505",
  chars! "0.7657540971783037",
  chars! "1.1611592255399148",
  chars! "1.3650586736618107",
  chars! "0.7028567210027985",
  chars! "1.4659727868381969",
  chars! "2.312448053688258",
  chars! "2.111033219544444",
  chars! "1.289537276786854",
  chars! "0.6338155277227469",
  chars! "0.5939479941431135"], [
  chars! "2440396.1527631325",
  chars! "2440396.064120076",
  chars! "2440395.9843031303",
  chars! "67391.08495758577",
  chars! "67391.06580919493",
  chars! "67391.05966927491",
  chars! "67391.05448406357",
  chars! "67391.04425836216",
  chars! "67390.49623907203",
  chars! "26992.94892515432",
  chars! "6298.982758195263",
  chars! "5712.7264572856475",
  chars! "3178.446332991232",
  chars! "1885.3539882729842",
  chars! "1103.4760604664425",
  chars! "673.0779016782025",
  chars! "399.78618599579545",
  chars! "240.23665985496254",
  chars! "65.4496113695689",
  chars! "38.605442695374286",
  chars! "28.081758734959234",
  chars! "25.242181810100107",
  chars! "3.746311796355126",
  chars! "2.513316867736632",
  chars! "1.9355570663269406",
  chars! "1.4388486929128397",
  chars! "0.9899517600637813",
  chars! "0.39763218580221815",
  chars! "0.13889701313434244",
  chars! "0.10805860840865822",
  chars! "0.062399364270190466",
  chars! "31466.846978006408",
  chars! "31466.83290798383",
  chars! "8942.980791959466",
  chars! "8940.53412368796",
  chars! "3782.442129937945",
  chars! "2649.448100534272",
  chars! "1409.8539836890002",
  chars! "834.140697085767",
  chars! "442.4907107943269",
  chars! "178.9350921724159",
  chars! "79.35504791246282",
  chars! "53.73824390317227",
  chars! "31.91703391441501",
  chars! "29.60688191526066",
  chars! "5.410553410098777",
  chars! "4.577116314425905",
  chars! "2.881330617816399",
  chars! "1.830880606101857",
  chars! "0.8316887771997912",
  chars! "0.30161330845228695"]⟩

/-- `fe` in `data/kl_slsqp_results.json`. -/
noncomputable def slsqp_fe : JEntry := ⟨chars! "fe", chars! "31", chars! "20", [
  chars! "1.0000000031775075e-12",
  chars! "3.6575351417673543e-07",
  chars! "1.027944568731077e-06",
  chars! "1.0000001872968517e-12",
  chars! "1.0000051056340706e-12",
  chars! "1e-12",
  chars! "1.0000103826223216e-12",
  chars! "0.0006360548457221616",
  chars! "1e-12",
  chars! "0.0005635779489404128",
  chars! "0.029010595575279415",
  chars! "1.0000024132274724e-12",
  chars! "0.01793408785616087",
  chars! "0.2410885770479307",
  chars! "0.13578178322467194",
  chars! "7.727854173189842e-05",
  chars! "0.512875021690933",
  chars! "0.33216051472899655",
  chars! "0.20940389794160763",
  chars! "1.9567960963997373",
  chars! "1.2194992077923175",
  chars! "2.671056380757265",
  chars! "0.22239004640309593",
  chars! "0.6827204179016979",
  chars! "1.391771692275881",
  chars! "1.12742134269839",
  chars! "0.5868328565536856",
  chars! "1.083685152160704",
  chars! "0.4791298831769039",
  chars! "0.07625063353117706",
  chars! "0.0023899573337709847",
  chars! "1e-12",
  chars! "0.0014458867668501062",
  chars! "1e-12",
  chars! "1.000001222470375e-12",
  chars! "0.01246531557906255",
  chars! "1e-12",
  chars! "0.1529389608478513",
  chars! "0.22622105786059538",
  chars! "0.06761211659873043",
  chars! "1.0000008865110416e-12",
  chars! "0.2366350542036286",
  chars! "0.5688306075484016",
  chars! "1.0000029889217255e-12",
  chars! "0.8813156043344775",
  chars! "1.652719027082039",
  chars! "1.5247468109554472",
  chars! "4.303118496479296",
  chars! "2.4017422052270745",
  chars! "0.5543113901463741",
  chars! "0.43642776635135505"], [
  chars! "2440396.1527630785",
  chars! "2440396.0641200305",
  chars! "2440395.9843031205",
  chars! "67391.08486092681",
  chars! "67391.0658060209",
  chars! "67391.05960210814",
  chars! "67391.05448362044",
  chars! "67391.04427050702",
  chars! "67390.49621916452",
  chars! "26992.94937136801",
  chars! "6298.994327461589",
  chars! "5712.72642768749",
  chars! "3178.452108131426",
  chars! "1885.3779483750518",
  chars! "1103.4970145627658",
  chars! "673.1072001432133",
  chars! "399.70294255989546",
  chars! "240.21854240146538",
  chars! "65.8547891935323",
  chars! "38.62731245229917",
  chars! "27.966764798832155",
  chars! "24.249961590384657",
  chars! "3.395377484583745",
  chars! "1.1843496609454622",
  chars! "0.7546299436117013",
  chars! "0.9706977318515163",
  chars! "2.374301460295996",
  chars! "0.14623504925223557",
  chars! "0.0913220755051563",
  chars! "0.05945167841179196",
  chars! "0.03877386648091694",
  chars! "31466.84855111539",
  chars! "31466.83157133099",
  chars! "8942.980784984604",
  chars! "8940.53411614489",
  chars! "3782.44431908725",
  chars! "2649.4477750961632",
  chars! "1409.86863387614",
  chars! "834.0955202417566",
  chars! "442.46281106445264",
  chars! "178.88944276818418",
  chars! "79.66868385309105",
  chars! "51.560270437494886",
  chars! "31.343830980153264",
  chars! "26.497598345175756",
  chars! "5.8921909787091735",
  chars! "5.722621488140703",
  chars! "3.450233664266953",
  chars! "2.0573764020700693",
  chars! "0.5060027325354439",
  chars! "0.2937626803955231"]⟩

theorem fits_fe_ok : fitsOk neutral_fe fpi_fe slsqp_fe = true := by decide +kernel

/-- `co` in `data/kl_fpi_results.json`. -/
noncomputable def fpi_co : JEntry := ⟨chars! "co", chars! "31", chars! "20", [
  chars! "7.014583709543354e-08",
  chars! "1.719927562775851e-07",
  chars! "1.9579419514634935e-07",
  chars! "5.319609904001648e-07",
  chars! "8.460378138095411e-06",
  chars! "5.2955591936655925e-05",
  chars! "0.00020748238468353485",
  chars! "0.0005681676571600663",
  chars! "0.0008839859288658497",
  chars! "0.0017149429289922814",
  chars! "0.002913140740812098",
  chars! "0.009297199323440097",
  chars! "0.025688118790527036",
  chars! "0.060159212955225076",
  chars! "0.1160340114656685",
  chars! "0.1860961451305427",
  chars! "0.2413019596908166",
  chars! "0.2727177425806871",
  chars! "0.45502856945628556",
  chars! "0.8021341927674484",
  chars! "1.0571181107286047",
  chars! "0.9168182599829828",
  chars! "0.7490889206545308",
  chars! "1.4334283486780495",
  chars! "1.7931245483617058",
  chars! "1.6089277592933622",
  chars! "1.142335081649458",
  chars! "0.7739744521597883",
  chars! "0.6927630824543457",
  chars! "0.598812903484506",
  chars! "0.13696865682025788",
  chars! "0.001988603792389591",
  chars! "0.00658861510424054",
  chars! "0.012217720253018803",
  chars! "0.03572664375934715",
  chars! "0.05295008305454657",
  chars! "0.11182661664771143",
  chars! "0.18687935860034277",
  chars! "0.26541407391026534",
  chars! "0.2866534735754097",
  chars! "0.26245373244966674",
  chars! "0.8520341688619455",
  chars! "1.191022243160295",
  chars! "1.3323360628456904",
  chars! "0.453548657995441",
  chars! "1.7710901751965429",
  chars! "2.4519292335439946",
  chars! "2.187837612389568",
  chars! "1.2334381116249367",
  chars! "0.6363393008869543",
  chars! "0.5895581303578253"], [
  chars! "3120675.725923396",
  chars! "3120675.646794952",
  chars! "3120675.574983264",
  chars! "76164.85742136996",
  chars! "76164.84889520037",
  chars! "76164.84605860434",
  chars! "76164.84355503874",
  chars! "76164.83818327123",
  chars! "76163.4505630397",
  chars! "30428.826811379902",
  chars! "6527.242881451121",
  chars! "5680.516882472736",
  chars! "3135.598186618151",
  chars! "1915.4728607610411",
  chars! "1114.4695328498449",
  chars! "684.1300910792589",
  chars! "411.42688779282514",
  chars! "219.34306305781604",
  chars! "66.15679780454906",
  chars! "39.98632980031348",
  chars! "30.26608590847833",
  chars! "27.071875431534334",
  chars! "3.889170121802683",
  chars! "2.6577965240218715",
  chars! "2.098908763454252",
  chars! "1.5324765446232675",
  chars! "0.9944047654406412",
  chars! "0.40357450694296",
  chars! "0.14469240196636093",
  chars! "0.1125829726380766",
  chars! "0.06502132858667553",
  chars! "35626.574364938235",
  chars! "35626.57040931768",
  chars! "10063.302151942988",
  chars! "10056.000788236932",
  chars! "4096.180622178995",
  chars! "2703.9150965728822",
  chars! "1431.4316151230496",
  chars! "838.3715425784688",
  chars! "429.66371119030805",
  chars! "148.17716239381775",
  chars! "80.66920876126522",
  chars! "53.28174164547947",
  chars! "33.714867560437405",
  chars! "31.083146458968145",
  chars! "6.149117354548057",
  chars! "4.766579212104978",
  chars! "2.9970314577305994",
  chars! "1.8145086495190779",
  chars! "0.832332393713195",
  chars! "0.31363144811534216"]⟩

/-- `co` in `data/kl_slsqp_results.json`. -/
noncomputable def slsqp_co : JEntry := ⟨chars! "co", chars! "31", chars! "20", [
  chars! "9.503257637123572e-08",
  chars! "4.588090549610288e-07",
  chars! "5.072404436281792e-07",
  chars! "1e-12",
  chars! "1.0000138591542169e-12",
  chars! "1e-12",
  chars! "0.0005762930709106794",
  chars! "1e-12",
  chars! "5.0272821716726085e-05",
  chars! "0.0004332396460626845",
  chars! "0.03409158919384037",
  chars! "0.006129634365468815",
  chars! "1.000019569756624e-12",
  chars! "0.2316425940635565",
  chars! "0.14322512542525237",
  chars! "0.22963672926660034",
  chars! "0.4377536826309874",
  chars! "0.14867234304942584",
  chars! "1.3154860567036761",
  chars! "0.9125279090452972",
  chars! "0.7572727382383249",
  chars! "1.3374572881698952",
  chars! "0.7300991482243827",
  chars! "0.3206088134386668",
  chars! "0.9281709762614053",
  chars! "1.6149281323971467",
  chars! "1.4138532303164155",
  chars! "1.1745420191294502",
  chars! "1.0250969595732866",
  chars! "0.029293876653165494",
  chars! "0.000252448374297006",
  chars! "0.0006769809824802296",
  chars! "0.0008470163043441162",
  chars! "1.0000097296361138e-12",
  chars! "1e-12",
  chars! "0.02280831092236504",
  chars! "1e-12",
  chars! "0.11805067838680752",
  chars! "0.17218171523574374",
  chars! "0.17233112296535072",
  chars! "1.0000009073632222e-12",
  chars! "0.27045225876967666",
  chars! "1.4364736876730106",
  chars! "0.044276799195694154",
  chars! "1.6163230853498007",
  chars! "2.4828839975134294",
  chars! "2.0935356347127727",
  chars! "3.580636944447029",
  chars! "1.755052222272394",
  chars! "0.35157705763215324",
  chars! "0.09010495627913616"], [
  chars! "3120675.7259233957",
  chars! "3120675.646794952",
  chars! "3120675.5749832634",
  chars! "76164.85744133039",
  chars! "76164.84889915558",
  chars! "76164.84605824847",
  chars! "76164.84357470053",
  chars! "76164.83819389314",
  chars! "76163.45051703442",
  chars! "30428.82081417068",
  chars! "6527.255626044983",
  chars! "5680.517583630024",
  chars! "3135.5941272434043",
  chars! "1915.4760068559185",
  chars! "1114.430353694088",
  chars! "684.1671137382032",
  chars! "411.4961961442231",
  chars! "219.3797451447086",
  chars! "66.3881512431586",
  chars! "39.98892907938729",
  chars! "29.7524903993089",
  chars! "27.30141534813416",
  chars! "3.708703564685826",
  chars! "2.2777569842287293",
  chars! "1.8287376749825253",
  chars! "1.105858414315657",
  chars! "0.7213879288343346",
  chars! "0.2150931998584914",
  chars! "0.12374034518999133",
  chars! "0.05360092699895807",
  chars! "0.03329067868363252",
  chars! "35626.566900651604",
  chars! "35626.56115380895",
  chars! "10063.302147923978",
  chars! "10056.000788468675",
  chars! "4096.16307068953",
  chars! "2703.8893890236136",
  chars! "1431.4779525166052",
  chars! "838.4013716223274",
  chars! "429.65227040342484",
  chars! "148.09727721604057",
  chars! "80.91373582967455",
  chars! "53.48152964999633",
  chars! "33.441463560613094",
  chars! "30.557983459372615",
  chars! "6.6114765617033955",
  chars! "4.77976578080558",
  chars! "3.3394436081955363",
  chars! "2.04324295542893",
  chars! "0.48226497160631865",
  chars! "0.09141388862844789"]⟩

theorem fits_co_ok : fitsOk neutral_co fpi_co slsqp_co = true := by decide +kernel

/-- `ni` in `data/kl_fpi_results.json`. -/
noncomputable def fpi_ni : JEntry := ⟨chars! "ni", chars! "30", chars! "20", [
  chars! "7.070026988416797e-08",
  chars! "1.795555232145069e-07",
  chars! "2.214196581397593e-07",
  chars! "5.998592649396607e-07",
  chars! "9.64964842261036e-06",
  chars! "6.021336438509285e-05",
  chars! "0.00023507638028909462",
  chars! "0.0006403779391774403",
  chars! "0.0009329067449426494",
  chars! "0.001827159780376953",
  chars! "0.0031730022784326965",
  chars! "0.009987105035743609",
  chars! "0.028127460952158078",
  chars! "0.06464756679945487",
  chars! "0.12264586084846803",
  chars! "0.19281525244578848",
  chars! "0.24316585056284132",
  chars! "0.2843704767630163",
  chars! "0.5072974045148695",
  chars! "0.8702150200692491",
  chars! "1.1129831734705076",
  chars! "0.9185411812480043",
  chars! "0.8920043143303235",
  chars! "1.5917435719526445",
  chars! "1.9076450968565728",
  chars! "1.6411146850614808",
  chars! "1.1649514701471382",
  chars! "0.8405261017851589",
  chars! "1.0317824076491502",
  chars! "0.12477985871332929",
  chars! "0.002232217088277438",
  chars! "0.007083348127224258",
  chars! "0.013536943622638948",
  chars! "0.038038071540750513",
  chars! "0.05918796128280042",
  chars! "0.11839691447973529",
  chars! "0.19552808325962842",
  chars! "0.2712705556517459",
  chars! "0.27973996255622446",
  chars! "0.31994587711798694",
  chars! "0.9240687570291223",
  chars! "1.267632651397675",
  chars! "1.3585110955310034",
  chars! "0.49130886818020014",
  chars! "1.9726650740547502",
  chars! "2.50825695456519",
  chars! "2.2218329588839674",
  chars! "1.186754376513908",
  chars! "0.6183898238222791",
  chars! "0.5893961883780559"], [
  chars! "3239389.3979603914",
  chars! "3239389.3374694786",
  chars! "3239389.2845642744",
  chars! "78649.42019054691",
  chars! "78649.41385569239",
  chars! "78649.41180855822",
  chars! "78649.40999843462",
  chars! "78649.40605651154",
  chars! "78647.4735538032",
  chars! "31473.54924352457",
  chars! "6616.711241812783",
  chars! "5619.940249114981",
  chars! "3147.6173265185193",
  chars! "1935.4507854408268",
  chars! "1132.1792739141117",
  chars! "699.2078674705414",
  chars! "424.48597661240365",
  chars! "200.74682051470336",
  chars! "67.6766430026339",
  chars! "40.52241632836066",
  chars! "31.095121770624935",
  chars! "27.577864667650232",
  chars! "4.097630240580701",
  chars! "2.761043567116475",
  chars! "2.222399609613682",
  chars! "1.596685204411807",
  chars! "0.9789145778523741",
  chars! "0.36080051806016483",
  chars! "0.12467665476025823",
  chars! "0.06685203791304664",
  chars! "36850.7832683522",
  chars! "36850.781176244775",
  chars! "10435.426861923046",
  chars! "10428.10096534865",
  chars! "4214.449651540736",
  chars! "2745.968472884017",
  chars! "1457.5809932566617",
  chars! "852.9798368192814",
  chars! "435.20414337008503",
  chars! "135.27835979681095",
  chars! "82.78274916480342",
  chars! "52.95992962787268",
  chars! "35.1504996060014",
  chars! "7.453354751371536",
  chars! "6.607204874542856",
  chars! "4.755377343745997",
  chars! "3.041773302053983",
  chars! "1.6849740747162372",
  chars! "0.746687806749783",
  chars! "0.2920848306280394"]⟩

/-- `ni` in `data/kl_slsqp_results.json`. -/
noncomputable def slsqp_ni : JEntry := ⟨chars! "ni", chars! "30", chars! "20", [
  chars! "4.841151747075551e-07",
  chars! "4.561259383535689e-11",
  chars! "6.591468443370889e-07",
  chars! "2.3850882768805803e-08",
  chars! "0.0006852405793674646",
  chars! "1.000238215845865e-12",
  chars! "1.0000000061200573e-12",
  chars! "1.000004959362344e-12",
  chars! "3.4761395810452184e-10",
  chars! "0.000451255009258635",
  chars! "0.04493140521726458",
  chars! "1.000039682495517e-12",
  chars! "1.0000000058627676e-12",
  chars! "0.26866352713212066",
  chars! "0.20118209616780622",
  chars! "1.0000024322602119e-12",
  chars! "0.48911470951220976",
  chars! "0.3465499209150207",
  chars! "0.7365068296828585",
  chars! "0.3285597178890775",
  chars! "0.6068825071396735",
  chars! "2.0758884589506046",
  chars! "0.1646093380676453",
  chars! "1.089878404598965",
  chars! "1.6663305710709142",
  chars! "1.5646597838908114",
  chars! "2.3374991015769617",
  chars! "1.694654880330524",
  chars! "0.2683086533370355",
  chars! "0.01373299917409856",
  chars! "0.0016666116503411862",
  chars! "1.0004127463160416e-12",
  chars! "1.000001954617539e-12",
  chars! "1e-12",
  chars! "0.028639809073342792",
  chars! "1.0000132809040236e-12",
  chars! "0.15769731988283375",
  chars! "0.2664740964887308",
  chars! "0.13125466168278546",
  chars! "0.27352509364715816",
  chars! "0.8577119688973658",
  chars! "1.5427452960389507",
  chars! "1.0785903651265165",
  chars! "0.8070979454908377",
  chars! "2.266758795863434",
  chars! "3.0671529650409433",
  chars! "1.7058863029309101",
  chars! "1.1293775131082435",
  chars! "0.44412862794782193",
  chars! "0.342210415644557"], [
  chars! "3239389.3979603876",
  chars! "3239389.3374694777",
  chars! "3239389.2845642697",
  chars! "78649.42018683715",
  chars! "78649.41385414125",
  chars! "78649.41180833128",
  chars! "78649.40999295817",
  chars! "78649.40606454229",
  chars! "78647.47367034767",
  chars! "31473.546089919542",
  chars! "6616.718811609994",
  chars! "5619.940290306407",
  chars! "3147.617368422948",
  chars! "1935.471729277229",
  chars! "1132.181099369536",
  chars! "699.1997211572567",
  chars! "424.53288904768823",
  chars! "200.6859184598675",
  chars! "67.66108591169336",
  chars! "40.69315644363933",
  chars! "30.7544221393428",
  chars! "27.035911482044916",
  chars! "3.8061934571948823",
  chars! "2.1700853061990624",
  chars! "1.5879929750369395",
  chars! "1.6786506236127947",
  chars! "0.8883430219812932",
  chars! "0.21578601515047754",
  chars! "0.08232653102048122",
  chars! "0.0502025919951552",
  chars! "36850.78238024983",
  chars! "36850.779769289526",
  chars! "10435.426859684878",
  chars! "10428.100965805126",
  chars! "4214.453453233766",
  chars! "2745.966125116386",
  chars! "1457.575049528251",
  chars! "852.9706157738109",
  chars! "435.2121818546639",
  chars! "135.37231429193017",
  chars! "82.33829082136177",
  chars! "53.64245664574352",
  chars! "33.312246599985166",
  chars! "7.429571672283588",
  chars! "7.134452843238872",
  chars! "4.554116175789999",
  chars! "3.6196848412230835",
  chars! "2.5182018955551237",
  chars! "0.5479928287798682",
  chars! "0.15459880621745556"]⟩

theorem fits_ni_ok : fitsOk neutral_ni fpi_ni slsqp_ni = true := by decide +kernel

/-- Part 2 of the results. -/
noncomputable def fits2 : List (DataFile × JEntry × JEntry) := [
  (neutral_p, fpi_p, slsqp_p),
  (neutral_s, fpi_s, slsqp_s),
  (neutral_cl, fpi_cl, slsqp_cl),
  (neutral_ar, fpi_ar, slsqp_ar),
  (neutral_k, fpi_k, slsqp_k),
  (neutral_ca, fpi_ca, slsqp_ca),
  (neutral_sc, fpi_sc, slsqp_sc),
  (neutral_ti, fpi_ti, slsqp_ti),
  (neutral_v, fpi_v, slsqp_v),
  (neutral_cr, fpi_cr, slsqp_cr),
  (neutral_mn, fpi_mn, slsqp_mn),
  (neutral_fe, fpi_fe, slsqp_fe),
  (neutral_co, fpi_co, slsqp_co),
  (neutral_ni, fpi_ni, slsqp_ni)]

theorem fits2_ok : ∀ p ∈ fits2, fitsOk p.1 p.2.1 p.2.2 = true := by
  intro p hp
  unfold fits2 at hp
  simp only [List.mem_cons, List.not_mem_nil, or_false] at hp
  rcases hp with rfl | rfl | rfl | rfl | rfl | rfl | rfl | rfl | rfl | rfl | rfl | rfl | rfl | rfl
  · exact fits_p_ok
  · exact fits_s_ok
  · exact fits_cl_ok
  · exact fits_ar_ok
  · exact fits_k_ok
  · exact fits_ca_ok
  · exact fits_sc_ok
  · exact fits_ti_ok
  · exact fits_v_ok
  · exact fits_cr_ok
  · exact fits_mn_ok
  · exact fits_fe_ok
  · exact fits_co_ok
  · exact fits_ni_ok

end BFit.Data
