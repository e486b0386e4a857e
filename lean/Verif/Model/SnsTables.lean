import Verif.Model.LtpfTables
import Verif.Model.Api

/-
Tables of the spectral noise shaping, `src/tables.c` and `src/sns.c`; generated by tools/gensns.py. Do not edit.

Values are integers, divided by a power of ten.
-/

set_option maxRecDepth 100000

namespace LC3

/-- `dct16_m`, src/sns.c:35-117, divided by `10^10`. -/
def dct16Mant : List (List Int) := [
  [2500000000, 3518509340, 3467599610, 3383295000, 3266407410, 3118062530, 2939689010, 2733004670, 2500000000,
   2242918970, 1964237400, 1666639150, 1352990250, 1026311320, 689748448, 346542923],
  [2500000000, 3383295000, 2939689010, 2242918970, 1352990250, 346542923, -689748448, -1666639150, -2500000000,
   -3118062530, -3467599610, -3518509340, -3266407410, -2733004670, -1964237400, -1026311320],
  [2500000000, 3118062530, 1964237400, 346542923, -1352990250, -2733004670, -3467599610, -3383295000, -2500000000,
   -1026311320, 689748448, 2242918970, 3266407410, 3518509340, 2939689010, 1666639150],
  [2500000000, 2733004670, 689748448, -1666639150, -3266407410, -3383295000, -1964237400, 346542923, 2500000000,
   3518509340, 2939689010, 1026311320, -1352990250, -3118062530, -3467599610, -2242918970],
  [2500000000, 2242918970, -689748448, -3118062530, -3266407410, -1026311320, 1964237400, 3518509340, 2500000000,
   -346542923, -2939689010, -3383295000, -1352990250, 1666639150, 3467599610, 2733004670],
  [2500000000, 1666639150, -1964237400, -3518509340, -1352990250, 2242918970, 3467599610, 1026311320, -2500000000,
   -3383295000, -689748448, 2733004670, 3266407410, 346542923, -2939689010, -3118062530],
  [2500000000, 1026311320, -2939689010, -2733004670, 1352990250, 3518509340, 689748448, -3118062530, -2500000000,
   1666639150, 3467599610, 346542923, -3266407410, -2242918970, 1964237400, 3383295000],
  [2500000000, 346542923, -3467599610, -1026311320, 3266407410, 1666639150, -2939689010, -2242918970, 2500000000,
   2733004670, -1964237400, -3118062530, 1352990250, 3383295000, -689748448, -3518509340],
  [2500000000, -346542923, -3467599610, 1026311320, 3266407410, -1666639150, -2939689010, 2242918970, 2500000000,
   -2733004670, -1964237400, 3118062530, 1352990250, -3383295000, -689748448, 3518509340],
  [2500000000, -1026311320, -2939689010, 2733004670, 1352990250, -3518509340, 689748448, 3118062530, -2500000000,
   -1666639150, 3467599610, -346542923, -3266407410, 2242918970, 1964237400, -3383295000],
  [2500000000, -1666639150, -1964237400, 3518509340, -1352990250, -2242918970, 3467599610, -1026311320, -2500000000,
   3383295000, -689748448, -2733004670, 3266407410, -346542923, -2939689010, 3118062530],
  [2500000000, -2242918970, -689748448, 3118062530, -3266407410, 1026311320, 1964237400, -3518509340, 2500000000,
   346542923, -2939689010, 3383295000, -1352990250, -1666639150, 3467599610, -2733004670],
  [2500000000, -2733004670, 689748448, 1666639150, -3266407410, 3383295000, -1964237400, -346542923, 2500000000,
   -3518509340, 2939689010, -1026311320, -1352990250, 3118062530, -3467599610, 2242918970],
  [2500000000, -3118062530, 1964237400, -346542923, -1352990250, 2733004670, -3467599610, 3383295000, -2500000000,
   1026311320, 689748448, -2242918970, 3266407410, -3518509340, 2939689010, -1666639150],
  [2500000000, -3383295000, 2939689010, -2242918970, 1352990250, -346542923, -689748448, 1666639150, -2500000000,
   3118062530, -3467599610, 3518509340, -3266407410, 2733004670, -1964237400, 1026311320],
  [2500000000, -3518509340, 3467599610, -3383295000, 3266407410, -3118062530, 2939689010, -2733004670, 2500000000,
   -2242918970, 1964237400, -1666639150, 1352990250, -1026311320, 689748448, -346542923]]

/-- `dct16_m`. -/
def dct16M : List (List Rat) := dct16Mant.map fun r => r.map fun m => dec m 10

/-- `lc3_sns_lfcb`, src/tables.c:4407-4505, divided by `10^11`. -/
def snsLfcbMant : List (List Int) := [
  [226283366000, 81331126900, -53019349500, -135664836000, -159952177000, -144098768000, -114381648000, -75520376800],
  [294516479000, 241143318000, 96045510600, -44322648800, -122913612000, -155590039000, -149688656000, -111689987000],
  [-218610707000, -197152136000, -178718620000, -191865896000, -179399122000, -135738404000, -70544427900, -4781729450],
  [69368823700, 95560985700, 57523078700, -11460341900, -64605063700, -95235137000, -107405247000, -75808770700],
  [-129752132000, -74036905700, -34537248400, -31328569600, -40297724300, -37202085300, -7834141770, 9704413040],
  [91465203800, 174293043000, 190906627000, 154408484000, 109344961000, 64747955000, 3617907520, -29709280700],
  [-251428813000, -289175271000, -200450667000, -75091227400, 44120210500, 120190988000, 132742857000, 122049081000],
  [-92218840500, 63249514100, 108736431000, 60862862500, 13117456800, -29614915800, -20701351700, 13492491700],
  [79032228800, 62840126200, 39311792400, 48000771100, 44781513800, 20973421500, 656691996, -8612423420],
  [144775580000, 272399952000, 231083269000, 93505127000, -27474391100, -90207769700, -94068151200, -63369703900],
  [79335452600, 1439311860, -56783484500, -65476046800, -47945899800, -17389466200, 6801627060, 29512594800],
  [272425347000, 295947572000, 184953559000, 56328492200, 13991708800, 35964109300, 68946135500, 63979017700],
  [-53083019800, -21269068300, 576613628, 42487148400, 47312895200, 85889419900, 119111161000, 99618967000],
  [168728411000, 243614509000, 233019429000, 177983778000, 144411295000, 151995177000, 147199394000, 97768247400],
  [-295183273000, -159393497000, -10991877300, 38860907300, 51293265000, 62811259700, 82262179600, 87589142500],
  [10187834300, 58985732400, 61904764700, 126731314000, 241961048000, 225174253000, 52653703100, -39659151300],
  [268254575000, 132738011000, 13018527400, -33853308900, -36821923600, -19168994700, -15478237700, -23420717800],
  [482697924000, 311947804000, 139513671000, 25029531600, -39361383900, -64345817300, -64257073700, -72319322300],
  [8784199360, -56958684000, -114506016000, -166968488000, -184534418000, -156468027000, -111746759000, -53398166300],
  [139102308000, 198146479000, 111265796000, -22010750900, -77496561200, -59406387400, 13693768100, 81824289100],
  [38458589400, -16058878600, -53936681000, -52930907900, 19043354700, 256062918000, 281896398000, 65667087600],
  [193227399000, 301030180000, 306543894000, 250110161000, 193089593000, 57215381100, -81174179400, -117641811000],
  [17508046300, -75052283200, -103943893000, -113577509000, -104197904000, -1520600990, 207048392000, 342948918000],
  [-118817020000, 36679287400, 130957830000, 168330687000, 125100924000, 94237575200, 82625048300, 43995274100],
  [253322203000, 211274643000, 126288412000, 76151351200, 52211793800, 11868007000, -45234682800, -70035242600],
  [399889837000, 407901751000, 282285661000, 172607213000, 64714437700, -33114852100, -88404257100, -112697341000],
  [50790259300, 158838450000, 172899024000, 100692230000, 37712123200, 47637076700, 108754740000, 108756266000],
  [316856825000, 325853458000, 242230591000, 179446078000, 152177911000, 117196707000, 48939459700, -6227957160],
  [189414767000, 125108695000, 59045121100, 60835858300, 87817101000, 111912511000, 101857662000, 62045389100],
  [94888060500, 213239439000, 272345350000, 276986077000, 254286973000, 202046264000, 83004585900, -2755691740],
  [-188026757000, -126431073000, 31142497700, 183670210000, 225634192000, 204818998000, 219526837000, 202659614000],
  [24637574600, 95562177300, 152046777000, 197647400000, 194043867000, 223375847000, 198835978000, 127232673000]]

/-- `lc3_sns_lfcb`. -/
def snsLfcb : List (List Rat) := snsLfcbMant.map fun r => r.map fun m => dec m 11

/-- `lc3_sns_hfcb`, src/tables.c:4507-4605, divided by `10^11`. -/
def snsHfcbMant : List (List Int) := [
  [23202841900, -100890271000, -214223503000, -237533814000, -223041933000, -217595881000, -229065914000,
   -253286398000],
  [-129503937000, -179929965000, -188703148000, -180991660000, -176340038000, -183418428000, -180480981000,
   -173679545000],
  [13928571600, -25818512600, -65080457300, -106815732000, -161928742000, -218762566000, -263757587000, -297897750000],
  [-31651310200, -47774765700, -55116207600, -48478828300, -23838839400, -14302450700, 6831866740, 8830617170],
  [87951840500, 29834009600, -91538639600, -220645975000, -274142181000, -286139074000, -288841597000, -295182608000],
  [-29670192200, -97500491900, -135857500000, -98372110600, -65295693900, -98998699300, -161467225000, -240712302000],
  [34098110000, 26889978900, 5633356850, 4991140470, -9541307270, -76016614600, -232758120000, -377155485000],
  [-141229759000, -148522119000, -118603580000, -62500163400, 15390249700, 57638649800, 79509260400, 59656463200],
  [-22883951200, -33371907000, -80932135900, -163587877000, -188486397000, -164496691000, -140515778000, -146666471000],
  [-107148629000, -141767015000, -154891762000, -145296062000, -103182970000, -69064264000, -42884380500, -49496021500],
  [-59098851100, -7117377590, 34571952300, 30054946100, -111865218000, -244089151000, -222854732000, -189509228000],
  [-84843409900, -58322681100, 9004236880, 84502500800, 106572385000, 73758299900, 25659045200, -49196336000],
  [114069146000, 96401689200, 38146120600, -48284934100, -181632721000, -280279513000, -323385725000, -345908714000],
  [-37628323800, 4256754620, 51654769700, 25171688200, -21617996800, -53407409100, -64078609600, -86974503200],
  [66500412100, 109790765000, 138342667000, 134327359000, 82297883700, 21587679900, -40492575300, -107025606000],
  [-82626595400, -67118123300, -22849559300, 51898085300, 136721896000, 218023038000, 253596093000, 220121099000],
  [141008327000, 75444190800, -130550585000, -187133711000, -124008685000, -126712925000, -203670813000, -289685162000],
  [36138681800, -2199917050, -57936883400, -87942796100, -85068502300, -77939705000, -73218292700, -88834851500],
  [43746923900, 30544042000, -738786566, -49564985500, -80665127100, -122431892000, -170157770000, -224491914000],
  [64810031900, 68229913400, 25324746400, 7358421440, 31421670900, 23472988100, 14460013400, -6821201790],
  [111919833000, 123465533000, 58917023800, -137192460000, -237095707000, -200779783000, -166688540000, -192631846000],
  [14184749700, -11066007100, -28282459300, -659813475, 28592928000, 4604455300, -60259641600, -226568729000],
  [50404695500, 82698216300, 111981236000, 117914044000, 107987429000, 69753623900, -91254881700, -357684747000],
  [-50107605000, -32567800600, 2807981950, 26205455500, 36059080600, 63562372200, 95901246700, 130745157000],
  [374970983000, 152342612000, -45771566200, -79871100800, -38681932900, -37590106200, -65783690000, -128163964000],
  [-115258991000, -110800886000, -56261511700, -22056212400, -34984288000, -75343277000, -98859659300, -128790472000],
  [102827246000, 109770519000, 76864554600, 20608197800, -34280573500, -75493940500, -104196178000, -150335653000],
  [12883197200, 68943939500, 112346905000, 130934523000, 135511965000, 142311381000, 115706449000, 40631943800],
  [134033030000, 138996825000, 104467922000, 63582274600, -27473375600, -154923372000, -244239710000, -302457607000],
  [213843105000, 424711267000, 289734110000, 93273065800, -29282225000, -81040429700, -78886809900, -93535314900],
  [56483048700, 159184978000, 239771699000, 303697344000, 266424350000, 139304485000, 40383402400, -65627097100],
  [-42246054800, 32614962500, 139171313000, 223146615000, 261179442000, 266540340000, 240103554000, 175920380000]]

/-- `lc3_sns_hfcb`. -/
def snsHfcb : List (List Rat) := snsHfcbMant.map fun r => r.map fun m => dec m 11

/-- `ge_14`, src/sns.c:161-177, divided by `10^8`. -/
def geMant14 : List Int := [
  100000000, 105250029, 110775685, 116591440, 122712524, 129154967, 135935639, 143072299, 150583635, 158489319,
  166810054, 175567629, 184784980, 194486244, 204696827, 215443469, 226754313, 238658979, 251188643, 264376119,
  278255940, 292864456, 308239924, 324422608, 341454887, 359381366, 378248991, 398107171, 419007911, 441005945,
  464158883, 488527357, 514175183, 541169527, 569581081, 599484250, 630957344, 664082785, 698947321, 735642254,
  774263683, 814912747, 857695899, 902725178, 950118507, 1000000000, 1052500290, 1107756850, 1165914400, 1227125240,
  1291549670, 1359356390, 1430722990, 1505836350, 1584893190, 1668100540, 1755676290, 1847849800, 1944862440,
  2046968270, 2154434690, 2267543130, 2386589790, 2511886430]

/-- `ge_18`, src/sns.c:179-195, divided by `10^8`. -/
def geMant18 : List Int := [
  100000000, 106800043, 114062492, 121818791, 130102522, 138949549, 148398179, 158489319, 169266662, 180776868,
  193069773, 206198601, 220220195, 235195264, 251188643, 268269580, 286512027, 305994969, 326802759, 349025488,
  372759372, 398107171, 425178630, 454090961, 484969343, 517947468, 553168120, 590783791, 630957344, 673862717,
  719685673, 768624610, 820891416, 876712387, 936329209, 1000000000, 1068000430, 1140624920, 1218187910, 1301025220,
  1389495490, 1483981790, 1584893190, 1692666620, 1807768680, 1930697730, 2061986010, 2202201950, 2351952640,
  2511886430, 2682695800, 2865120270, 3059949690, 3268027590, 3490254880, 3727593720, 3981071710, 4251786300,
  4540909610, 4849693430, 5179474680, 5531681200, 5907837910, 6309573440]

/-- `ge_22`, src/sns.c:197-213, divided by `10^8`. -/
def geMant22 : List Int := [
  100000000, 108372885, 117446822, 127280509, 137937560, 149486913, 162003281, 175567629, 190267705, 206198601,
  223463373, 242173704, 262450630, 284425319, 308239924, 334048498, 362017995, 392329345, 425178630, 460778348,
  499358789, 541169527, 586481029, 635586411, 688803330, 746476041, 808977621, 876712387, 950118507, 1029670840,
  1115883990, 1209315680, 1310570290, 1420302830, 1539223150, 1668100540, 1807768680, 1959131070, 2123166860,
  2300937180, 2493592000, 2702377600, 2928644560, 3173856610, 3439599970, 3727593720, 4039700860, 4377940360,
  4744500280, 5141751830, 5572264800, 6038824120, 6544447920, 7092407020, 7686246100, 8329806650, 9027251780,
  9783093190, 10602220300, 11489932000, 12451970800, 13494560000, 14624444000, 15848931900]

/-- `ge_26`, src/sns.c:215-231, divided by `10^8`. -/
def geMant26 : List Int := [
  100000000, 109968890, 120931568, 132987103, 146244440, 160823388, 176855694, 194486244, 213874364, 235195264,
  258641621, 284425319, 312779366, 343959997, 378248991, 415956216, 457422434, 503022373, 553168120, 608312841,
  668954879, 735642254, 808977621, 889623710, 978309319, 1075835900, 1183084800, 1301025220, 1430722990, 1573350190,
  1730195740, 1902677050, 2092352830, 2300937180, 2530315080, 2782559400, 3059949690, 3364992700, 3700445120,
  4069338430, 4475006300, 4921114750, 5411695270, 5951181210, 6544447920, 7196856730, 7914303460, 8703271660,
  9570891240, 10525002900, 11574228800, 12728050900, 13996896300, 15392231500, 16926666200, 18614066900, 20469682700,
  22510282900, 24754308200, 27222037900, 29935772900, 32920037200, 36201799500, 39810717100]

/-- `ge_30`, src/sns.c:233-249, divided by `10^8`. -/
def geMant30 : List Int := [
  100000000, 111588399, 124519708, 138949549, 155051578, 173019574, 193069773, 215443469, 240409918, 268269580,
  299357729, 334048498, 372759372, 415956216, 464158883, 517947468, 577969288, 644946677, 719685673, 803085722,
  896150502, 1000000000, 1115883990, 1245197080, 1389495490, 1550515780, 1730195740, 1930697730, 2154434690,
  2404099180, 2682695800, 2993577290, 3340484980, 3727593720, 4159562160, 4641588830, 5179474680, 5779692880,
  6449466770, 7196856730, 8030857220, 8961505020, 10000000000, 11158839900, 12451970800, 13894954900, 15505157800,
  17301957400, 19306977300, 21544346900, 24040991800, 26826958000, 29935772900, 33404849800, 37275937200, 41595621600,
  46415888300, 51794746800, 57796928800, 64494667700, 71968567300, 80308572200, 89615050200, 100000000000]

/-- `ge_34`, src/sns.c:253-269, divided by `10^8`. -/
def geMant34 : List Int := [
  100000000, 113231759, 128214312, 145179321, 164389099, 186140669, 210770353, 238658979, 270237760, 305994969,
  346483486, 392329345, 444241419, 503022373, 569581081, 644946677, 730284467, 826913948, 936329209, 1060222030,
  1200508060, 1359356390, 1539223150, 1742889450, 1973504380, 2234633730, 2530315080, 2865120270, 3244226080,
  3673494260, 4159562160, 4709945400, 5333154030, 6038824120, 6837866770, 7742636830, 8767123870, 9927168580,
  11240707600, 12728050900, 14412196000, 16319183000, 18478498000, 20923528300, 23692079100, 26826958000, 30376636400,
  34395999700, 38947195500, 44100594500, 49935878900, 56543274100, 64024943900, 72496570100, 82089141600, 92950979000,
  105250029000, 119176459000, 134945600000, 152801277000, 173019574000, 195913107000, 221835857000, 251188643000]

/-- `ge_table`, src/sns.c:273-282. -/
def geTable : Srate → List Rat
  | .k8 => geMant14.map fun m => dec m 8
  | .k16 => geMant18.map fun m => dec m 8
  | .k24 => geMant22.map fun m => dec m 8
  | .k32 => geMant26.map fun m => dec m 8
  | .k48 => geMant30.map fun m => dec m 8
  | .k48hr => geMant30.map fun m => dec m 8
  | .k96hr => geMant34.map fun m => dec m 8

/-- `lc3_sns_vq_gains`, src/tables.c:4607-4621. -/
def snsGainValues : List (List Rat) := [
  [8915 / 4096, 12054 / 4096],
  [6245 / 4096, 15043 / 4096, 17861 / 4096, 21014 / 4096],
  [7099 / 4096, 9132 / 4096, 11253 / 4096, 14808 / 4096],
  [4336 / 4096, 5067 / 4096, 5895 / 4096, 8149 / 4096, 10235 / 4096, 12825 / 4096, 16868 / 4096, 19882 / 4096]]

end LC3
