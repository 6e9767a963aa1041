/-!
# Reference systems

Generated by `tools/gen_data.py` from `reference/d4/params.py`; do not edit.
-/

namespace TadDftd4.Data

/-- `reference/d4/params.py:21550-21657 refc`, times `10^0` -/
def refc : List (List Nat) := [
   [0, 0, 0, 0, 0, 0, 0],
   [3, 1, 0, 0, 0, 0, 0],
   [3, 0, 0, 0, 0, 0, 0],
   [3, 1, 1, 0, 0, 0, 0],
   [3, 1, 1, 1, 0, 0, 0],
   [3, 1, 1, 1, 1, 0, 0],
   [3, 3, 1, 3, 1, 3, 3],
   [3, 3, 1, 1, 3, 0, 0],
   [3, 3, 1, 3, 0, 0, 0],
   [3, 1, 0, 0, 0, 0, 0],
   [3, 0, 0, 0, 0, 0, 0],
   [3, 1, 1, 0, 0, 0, 0],
   [3, 1, 1, 1, 0, 0, 0],
   [3, 1, 1, 1, 0, 0, 0],
   [3, 1, 1, 1, 1, 0, 0],
   [3, 1, 1, 1, 0, 0, 0],
   [3, 1, 1, 0, 0, 0, 0],
   [3, 1, 0, 0, 0, 0, 0],
   [3, 0, 0, 0, 0, 0, 0],
   [3, 1, 1, 0, 0, 0, 0],
   [3, 1, 1, 1, 0, 0, 0],
   [3, 1, 1, 1, 0, 0, 0],
   [3, 1, 1, 1, 0, 0, 0],
   [3, 1, 1, 1, 0, 0, 0],
   [3, 1, 1, 1, 0, 0, 0],
   [3, 1, 1, 0, 0, 0, 0],
   [3, 1, 1, 0, 0, 0, 0],
   [3, 1, 1, 1, 0, 0, 0],
   [3, 1, 1, 1, 0, 0, 0],
   [3, 1, 0, 0, 0, 0, 0],
   [3, 1, 0, 0, 0, 0, 0],
   [3, 1, 1, 0, 0, 0, 0],
   [3, 1, 1, 1, 1, 0, 0],
   [3, 1, 1, 1, 0, 0, 0],
   [3, 1, 1, 0, 0, 0, 0],
   [3, 1, 0, 0, 0, 0, 0],
   [3, 0, 0, 0, 0, 0, 0],
   [3, 1, 1, 0, 0, 0, 0],
   [3, 1, 1, 1, 0, 0, 0],
   [3, 1, 1, 0, 0, 0, 0],
   [3, 1, 1, 1, 0, 0, 0],
   [3, 1, 1, 1, 0, 0, 0],
   [3, 1, 1, 1, 0, 0, 0],
   [3, 1, 1, 0, 0, 0, 0],
   [3, 1, 1, 0, 0, 0, 0],
   [3, 1, 1, 1, 0, 0, 0],
   [3, 1, 1, 0, 0, 0, 0],
   [3, 1, 0, 0, 0, 0, 0],
   [3, 1, 0, 0, 0, 0, 0],
   [3, 1, 1, 1, 0, 0, 0],
   [3, 1, 1, 1, 1, 0, 0],
   [3, 1, 1, 1, 0, 0, 0],
   [3, 1, 1, 0, 0, 0, 0],
   [3, 1, 0, 0, 0, 0, 0],
   [3, 0, 0, 0, 0, 0, 0],
   [3, 1, 1, 0, 0, 0, 0],
   [3, 1, 1, 1, 0, 0, 0],
   [3, 1, 1, 0, 0, 0, 0],
   [1, 0, 0, 0, 0, 0, 0],
   [3, 1, 0, 0, 0, 0, 0],
   [3, 1, 0, 0, 0, 0, 0],
   [3, 1, 0, 0, 0, 0, 0],
   [3, 1, 0, 0, 0, 0, 0],
   [3, 1, 0, 0, 0, 0, 0],
   [3, 1, 0, 0, 0, 0, 0],
   [3, 1, 0, 0, 0, 0, 0],
   [3, 1, 0, 0, 0, 0, 0],
   [3, 1, 0, 0, 0, 0, 0],
   [3, 1, 0, 0, 0, 0, 0],
   [3, 1, 0, 0, 0, 0, 0],
   [3, 1, 0, 0, 0, 0, 0],
   [3, 1, 0, 0, 0, 0, 0],
   [3, 1, 1, 1, 0, 0, 0],
   [3, 1, 1, 1, 0, 0, 0],
   [3, 1, 1, 0, 0, 0, 0],
   [3, 1, 1, 0, 0, 0, 0],
   [3, 1, 1, 0, 0, 0, 0],
   [3, 1, 1, 1, 1, 0, 0],
   [3, 1, 1, 0, 0, 0, 0],
   [3, 1, 0, 0, 0, 0, 0],
   [3, 1, 0, 0, 0, 0, 0],
   [3, 1, 1, 1, 0, 0, 0],
   [3, 1, 1, 1, 1, 0, 0],
   [3, 1, 1, 1, 0, 0, 0],
   [3, 1, 1, 0, 0, 0, 0],
   [3, 1, 0, 0, 0, 0, 0],
   [3, 0, 0, 0, 0, 0, 0],
   [3, 1, 0, 0, 0, 0, 0],
   [3, 1, 1, 0, 0, 0, 0],
   [3, 1, 1, 1, 1, 1, 1],
   [3, 1, 1, 1, 1, 0, 0],
   [3, 1, 1, 1, 1, 1, 0],
   [3, 1, 0, 1, 3, 3, 1],
   [3, 1, 1, 1, 1, 1, 1],
   [3, 1, 1, 1, 1, 1, 1],
   [3, 1, 1, 1, 0, 1, 1],
   [3, 1, 1, 1, 1, 1, 1],
   [3, 1, 1, 1, 1, 0, 0],
   [3, 1, 1, 1, 1, 0, 1],
   [3, 1, 1, 1, 1, 1, 1],
   [3, 1, 1, 1, 1, 1, 1],
   [3, 1, 1, 1, 1, 0, 0],
   [3, 1, 1, 1, 3, 3, 1],
   [3, 1, 1, 1, 1, 1, 1]]

/-- `reference/d4/params.py:21440-21548 refsys`, times `10^0` -/
def refsys : List (List Nat) := [
   [0, 0, 0, 0, 0, 0, 0],
   [1, 1, 0, 0, 0, 0, 0],
   [1, 0, 0, 0, 0, 0, 0],
   [1, 1, 17, 0, 0, 0, 0],
   [1, 1, 1, 9, 0, 0, 0],
   [1, 1, 1, 1, 1, 0, 0],
   [1, 1, 1, 1, 1, 1, 2],
   [1, 1, 1, 1, 1, 0, 0],
   [1, 1, 1, 1, 0, 0, 0],
   [1, 1, 0, 0, 0, 0, 0],
   [1, 0, 0, 0, 0, 0, 0],
   [1, 1, 17, 0, 0, 0, 0],
   [1, 1, 1, 9, 0, 0, 0],
   [1, 1, 1, 1, 0, 0, 0],
   [1, 1, 1, 1, 1, 0, 0],
   [1, 1, 1, 1, 0, 0, 0],
   [1, 1, 1, 0, 0, 0, 0],
   [1, 1, 0, 0, 0, 0, 0],
   [1, 0, 0, 0, 0, 0, 0],
   [1, 1, 17, 0, 0, 0, 0],
   [1, 1, 1, 9, 0, 0, 0],
   [1, 1, 1, 11, 0, 0, 0],
   [1, 1, 1, 11, 0, 0, 0],
   [1, 1, 1, 11, 0, 0, 0],
   [1, 1, 1, 8, 0, 0, 0],
   [1, 1, 1, 0, 0, 0, 0],
   [1, 1, 1, 0, 0, 0, 0],
   [1, 1, 1, 1, 0, 0, 0],
   [1, 1, 1, 1, 0, 0, 0],
   [1, 1, 0, 0, 0, 0, 0],
   [1, 1, 0, 0, 0, 0, 0],
   [1, 1, 1, 0, 0, 0, 0],
   [1, 1, 1, 1, 1, 0, 0],
   [1, 1, 1, 1, 0, 0, 0],
   [1, 1, 1, 0, 0, 0, 0],
   [1, 1, 0, 0, 0, 0, 0],
   [1, 0, 0, 0, 0, 0, 0],
   [1, 1, 17, 0, 0, 0, 0],
   [1, 1, 1, 9, 0, 0, 0],
   [1, 1, 1, 0, 0, 0, 0],
   [1, 1, 1, 11, 0, 0, 0],
   [1, 1, 1, 11, 0, 0, 0],
   [1, 1, 1, 1, 0, 0, 0],
   [1, 1, 1, 0, 0, 0, 0],
   [1, 1, 1, 0, 0, 0, 0],
   [1, 1, 1, 1, 0, 0, 0],
   [1, 1, 1, 0, 0, 0, 0],
   [1, 1, 0, 0, 0, 0, 0],
   [1, 1, 0, 0, 0, 0, 0],
   [1, 1, 1, 1, 0, 0, 0],
   [1, 1, 1, 1, 1, 0, 0],
   [1, 1, 1, 1, 0, 0, 0],
   [1, 1, 1, 0, 0, 0, 0],
   [1, 1, 0, 0, 0, 0, 0],
   [1, 0, 0, 0, 0, 0, 0],
   [1, 1, 17, 0, 0, 0, 0],
   [1, 1, 1, 9, 0, 0, 0],
   [1, 1, 1, 0, 0, 0, 0],
   [1, 0, 0, 0, 0, 0, 0],
   [1, 1, 0, 0, 0, 0, 0],
   [1, 1, 0, 0, 0, 0, 0],
   [1, 1, 0, 0, 0, 0, 0],
   [1, 1, 0, 0, 0, 0, 0],
   [1, 1, 0, 0, 0, 0, 0],
   [1, 1, 0, 0, 0, 0, 0],
   [1, 1, 0, 0, 0, 0, 0],
   [1, 1, 0, 0, 0, 0, 0],
   [1, 1, 0, 0, 0, 0, 0],
   [1, 1, 0, 0, 0, 0, 0],
   [1, 1, 0, 0, 0, 0, 0],
   [1, 1, 0, 0, 0, 0, 0],
   [1, 1, 0, 0, 0, 0, 0],
   [1, 1, 1, 11, 0, 0, 0],
   [1, 1, 1, 11, 0, 0, 0],
   [1, 1, 1, 0, 0, 0, 0],
   [1, 1, 1, 0, 0, 0, 0],
   [1, 1, 1, 0, 0, 0, 0],
   [1, 1, 1, 1, 1, 0, 0],
   [1, 1, 1, 0, 0, 0, 0],
   [1, 1, 0, 0, 0, 0, 0],
   [1, 1, 0, 0, 0, 0, 0],
   [1, 1, 1, 1, 0, 0, 0],
   [1, 1, 1, 1, 1, 0, 0],
   [1, 1, 1, 1, 0, 0, 0],
   [1, 1, 1, 0, 0, 0, 0],
   [1, 1, 0, 0, 0, 0, 0],
   [1, 0, 0, 0, 0, 0, 0],
   [1, 1, 0, 0, 0, 0, 0],
   [1, 1, 1, 0, 0, 0, 0],
   [1, 1, 1, 1, 1, 1, 1],
   [1, 1, 1, 1, 1, 0, 0],
   [1, 1, 1, 1, 1, 1, 0],
   [1, 1, 0, 1, 1, 1, 1],
   [1, 1, 1, 1, 1, 1, 1],
   [1, 1, 1, 1, 1, 1, 1],
   [1, 1, 1, 1, 0, 1, 1],
   [1, 1, 1, 1, 1, 1, 1],
   [1, 1, 1, 1, 1, 0, 0],
   [1, 1, 1, 1, 1, 0, 1],
   [1, 1, 1, 1, 1, 1, 1],
   [1, 1, 1, 1, 1, 1, 1],
   [1, 1, 1, 1, 1, 0, 0],
   [1, 1, 1, 1, 1, 1, 1],
   [1, 1, 1, 1, 1, 1, 1]]

/-- `reference/d4/params.py:40-980 refcovcn`, times `10^14` -/
def refcn : List (List Nat) := [
   [0, 0, 0, 0, 0, 0, 0],
   [0, 89422436546040, 0, 0, 0, 0, 0],
   [0, 0, 0, 0, 0, 0, 0],
   [0, 80196797025252, 455700000000000, 0, 0, 0, 0],
   [0, 87483634146801, 175692293756846, 844900000000000, 0, 0, 0],
   [0, 93017535174568, 186318070483743, 279150308430417, 441327468359181, 0, 0],
   [0, 91894761153698, 190786062124811, 283122393221341, 374870030209262, 291832701804388, 85560990866661],
   [0, 85827791612782, 183985112339643, 258039902538908, 98085535554904, 0, 0],
   [0, 80416789582615, 161123940672270, 97984400975835, 0, 0, 0],
   [0, 74076991274917, 0, 0, 0, 0, 0],
   [0, 0, 0, 0, 0, 0, 0],
   [0, 78077255822701, 600100000000000, 0, 0, 0, 0],
   [0, 82437946770105, 166972660811953, 1395600000000000, 0, 0, 0],
   [0, 86567622356503, 173262223552501, 261541321571983, 0, 0, 0],
   [0, 89153537011814, 182343155163634, 280029114356397, 366675219599495, 0, 0],
   [0, 97498969761258, 195559430261502, 292666412421238, 0, 0, 0],
   [0, 92198495968462, 184453813661707, 0, 0, 0, 0],
   [0, 84439969796621, 0, 0, 0, 0, 0],
   [0, 0, 0, 0, 0, 0, 0],
   [0, 77389074718844, 1145000000000000, 0, 0, 0, 0],
   [0, 80173786145238, 157758711825521, 1514000000000000, 0, 0, 0],
   [0, 160644512750973, 250274820582596, 383500003814697, 0, 0, 0],
   [0, 162278979228613, 343281247525220, 443849000000000, 0, 0, 0],
   [0, 172211010302514, 262026342999598, 338800000000000, 0, 0, 0],
   [0, 165041632145300, 959333666980809, 509941611449080, 0, 0, 0],
   [0, 145861721080984, 878012041793345, 0, 0, 0, 0],
   [0, 152985788829933, 847495927159456, 0, 0, 0, 0],
   [0, 160281178943204, 273732238386544, 727710111777824, 0, 0, 0],
   [0, 168368353980441, 615501721386632, 591752241519496, 0, 0, 0],
   [0, 89816244646957, 0, 0, 0, 0, 0],
   [0, 175336283145604, 0, 0, 0, 0, 0],
   [0, 88820287155353, 178721228422408, 0, 0, 0, 0],
   [0, 89941149965103, 185525243419195, 278448725734282, 371823460680579, 0, 0],
   [0, 96810324138508, 193762986034873, 290829444959119, 0, 0, 0],
   [0, 92195274896170, 184493749809528, 0, 0, 0, 0],
   [0, 87141367228098, 0, 0, 0, 0, 0],
   [0, 0, 0, 0, 0, 0, 0],
   [0, 77155167960451, 1239000000000000, 0, 0, 0, 0],
   [0, 79294768050705, 154805734413866, 1512100028991699, 0, 0, 0],
   [0, 161670701598223, 243996146811665, 0, 0, 0, 0],
   [0, 166263906536582, 335991209283567, 609300000000000, 0, 0, 0],
   [0, 175136276843804, 261865286219105, 402900000000000, 0, 0, 0],
   [0, 189510707051732, 1077850977361032, 559646145748005, 0, 0, 0],
   [0, 156460355314490, 894426823783675, 0, 0, 0, 0],
   [0, 182293327778554, 872336154530085, 0, 0, 0, 0],
   [0, 184241892648043, 288090049147235, 469798180984017, 0, 0, 0],
   [0, 182751376419277, 562156480548985, 0, 0, 0, 0],
   [0, 91215552676727, 0, 0, 0, 0, 0],
   [0, 177531555102521, 0, 0, 0, 0, 0],
   [0, 88719377220275, 178495637384615, 270420959057537, 0, 0, 0],
   [0, 90042437628478, 184687551160093, 277047146659601, 370466711294240, 0, 0],
   [0, 93580947053485, 187397783659382, 281393944504634, 0, 0, 0],
   [0, 94900106848812, 189954395376061, 0, 0, 0, 0],
   [0, 91239969640123, 0, 0, 0, 0, 0],
   [0, 0, 0, 0, 0, 0, 0],
   [0, 78131762864252, 1394000000000000, 0, 0, 0, 0],
   [0, 78501458609867, 147819220471197, 1467700004577637, 0, 0, 0],
   [0, 160493415835961, 241715875994685, 0, 0, 0, 0],
   [232446531201143, 0, 0, 0, 0, 0, 0],
   [0, 244976242184767, 0, 0, 0, 0, 0],
   [0, 245621204848065, 0, 0, 0, 0, 0],
   [0, 245653273553474, 0, 0, 0, 0, 0],
   [0, 245472309204146, 0, 0, 0, 0, 0],
   [0, 153272635693059, 0, 0, 0, 0, 0],
   [0, 241754019361739, 0, 0, 0, 0, 0],
   [0, 245190848719608, 0, 0, 0, 0, 0],
   [0, 244535641509585, 0, 0, 0, 0, 0],
   [0, 247312888776754, 0, 0, 0, 0, 0],
   [0, 248043640078965, 0, 0, 0, 0, 0],
   [0, 248120800603580, 0, 0, 0, 0, 0],
   [0, 241884356027485, 0, 0, 0, 0, 0],
   [0, 248673110207243, 0, 0, 0, 0, 0],
   [0, 164596625526870, 332095096313483, 462300000000000, 0, 0, 0],
   [0, 171671961147963, 255699041057149, 396300000000000, 0, 0, 0],
   [0, 184852525804219, 1044998431099169, 0, 0, 0, 0],
   [0, 169673556648333, 919053013143453, 0, 0, 0, 0],
   [0, 185014246784508, 897974115543403, 0, 0, 0, 0],
   [0, 182924504495576, 288910972828218, 378801363268039, 466121308138933, 0, 0],
   [0, 186072268763509, 646855936294889, 0, 0, 0, 0],
   [0, 91830179564855, 0, 0, 0, 0, 0],
   [0, 189515764632510, 0, 0, 0, 0, 0],
   [0, 83218042800594, 173451304607259, 264455909521743, 0, 0, 0],
   [0, 90267202371440, 186326667138745, 279951773292937, 376444392234350, 0, 0],
   [0, 93840398774753, 187829610127455, 281907131341312, 0, 0, 0],
   [0, 93512916979697, 187110482058901, 0, 0, 0, 0],
   [0, 97711087656722, 0, 0, 0, 0, 0],
   [0, 0, 0, 0, 0, 0, 0],
   [0, 76514673233032, 0, 0, 0, 0, 0],
   [0, 77520757913589, 154451191425323, 0, 0, 0, 0],
   [0, 81221771240234, 161096704006195, 240822887420654, 316141414642334, 386818122863770, 460221958160400],
   [0, 84210479259491, 167266535758972, 250573635101318, 333462429046631, 0, 0],
   [0, 85091900825500, 168243002891541, 256143164634705, 341472434997559, 433161783218384, 0],
   [0, 84563773870468, 0, 250075340270996, 338830232620239, 357048654556274, 512557458877563],
   [0, 84929960966110, 168312501907349, 251682710647583, 339772701263428, 423597240447998, 509381914138794],
   [0, 81253784894943, 165689170360565, 249969720840454, 336243820190430, 419367313385010, 502024745941162],
   [0, 78272187709808, 158581125736237, 246386861801147, 0, 410353183746338, 494068670272827],
   [0, 83474421501160, 164897620677948, 247316074371338, 326227951049805, 405759239196777, 485972309112549],
   [0, 82979065179825, 166842269897461, 250224256515503, 336453199386597, 0, 0],
   [0, 81898736953735, 163452363014221, 250784802436829, 334391856193542, 0, 498358106613159],
   [0, 79849386215210, 160774898529053, 248593425750732, 330908131599426, 411455059051514, 489267015457153],
   [0, 81187158823013, 163818895816803, 251218342781067, 333093667030334, 415018892288208, 497273159027100],
   [0, 83019560575485, 167299079895020, 252414393424988, 336544203758240, 0, 0],
   [0, 83132714033127, 167657399177551, 251869487762451, 336061143875122, 362583565711975, 385555744171143],
   [0, 81793087720871, 164256453514099, 247565555572510, 321661520004272, 399956941604614, 477920246124268]]

/-- `reference/d4/params.py:19556-20496 refascale`, times `10^14` -/
def refascale : List (List Nat) := [
   [0, 0, 0, 0, 0, 0, 0],
   [100000000000000, 50000000000000, 0, 0, 0, 0, 0],
   [100000000000000, 0, 0, 0, 0, 0, 0],
   [100000000000000, 100000000000000, 25000000000000, 0, 0, 0, 0],
   [100000000000000, 100000000000000, 100000000000000, 25000000000000, 0, 0, 0],
   [100000000000000, 100000000000000, 100000000000000, 100000000000000, 50000000000000, 0, 0],
   [100000000000000, 100000000000000, 50000000000000, 50000000000000, 50000000000000, 16666666666667, 100000000000000],
   [100000000000000, 100000000000000, 50000000000000, 100000000000000, 50000000000000, 0, 0],
   [100000000000000, 100000000000000, 100000000000000, 50000000000000, 0, 0, 0],
   [100000000000000, 100000000000000, 0, 0, 0, 0, 0],
   [100000000000000, 0, 0, 0, 0, 0, 0],
   [100000000000000, 100000000000000, 25000000000000, 0, 0, 0, 0],
   [100000000000000, 100000000000000, 100000000000000, 25000000000000, 0, 0, 0],
   [100000000000000, 100000000000000, 100000000000000, 100000000000000, 0, 0, 0],
   [100000000000000, 100000000000000, 100000000000000, 50000000000000, 50000000000000, 0, 0],
   [100000000000000, 100000000000000, 50000000000000, 100000000000000, 0, 0, 0],
   [100000000000000, 100000000000000, 100000000000000, 0, 0, 0, 0],
   [100000000000000, 100000000000000, 0, 0, 0, 0, 0],
   [100000000000000, 0, 0, 0, 0, 0, 0],
   [100000000000000, 100000000000000, 25000000000000, 0, 0, 0, 0],
   [100000000000000, 100000000000000, 100000000000000, 25000000000000, 0, 0, 0],
   [100000000000000, 100000000000000, 100000000000000, 100000000000000, 0, 0, 0],
   [100000000000000, 100000000000000, 100000000000000, 100000000000000, 0, 0, 0],
   [100000000000000, 100000000000000, 100000000000000, 100000000000000, 0, 0, 0],
   [100000000000000, 100000000000000, 100000000000000, 100000000000000, 0, 0, 0],
   [100000000000000, 100000000000000, 100000000000000, 0, 0, 0, 0],
   [100000000000000, 100000000000000, 100000000000000, 0, 0, 0, 0],
   [100000000000000, 100000000000000, 100000000000000, 100000000000000, 0, 0, 0],
   [100000000000000, 100000000000000, 100000000000000, 100000000000000, 0, 0, 0],
   [100000000000000, 100000000000000, 0, 0, 0, 0, 0],
   [100000000000000, 100000000000000, 0, 0, 0, 0, 0],
   [100000000000000, 100000000000000, 100000000000000, 0, 0, 0, 0],
   [100000000000000, 100000000000000, 100000000000000, 100000000000000, 100000000000000, 0, 0],
   [100000000000000, 100000000000000, 100000000000000, 100000000000000, 0, 0, 0],
   [100000000000000, 100000000000000, 100000000000000, 0, 0, 0, 0],
   [100000000000000, 100000000000000, 0, 0, 0, 0, 0],
   [100000000000000, 0, 0, 0, 0, 0, 0],
   [100000000000000, 100000000000000, 25000000000000, 0, 0, 0, 0],
   [100000000000000, 100000000000000, 100000000000000, 25000000000000, 0, 0, 0],
   [100000000000000, 100000000000000, 100000000000000, 0, 0, 0, 0],
   [100000000000000, 100000000000000, 100000000000000, 100000000000000, 0, 0, 0],
   [100000000000000, 100000000000000, 100000000000000, 100000000000000, 0, 0, 0],
   [100000000000000, 100000000000000, 100000000000000, 100000000000000, 0, 0, 0],
   [100000000000000, 100000000000000, 100000000000000, 0, 0, 0, 0],
   [100000000000000, 100000000000000, 100000000000000, 0, 0, 0, 0],
   [100000000000000, 100000000000000, 100000000000000, 100000000000000, 0, 0, 0],
   [100000000000000, 100000000000000, 100000000000000, 0, 0, 0, 0],
   [100000000000000, 100000000000000, 0, 0, 0, 0, 0],
   [100000000000000, 100000000000000, 0, 0, 0, 0, 0],
   [100000000000000, 100000000000000, 100000000000000, 100000000000000, 0, 0, 0],
   [100000000000000, 100000000000000, 100000000000000, 100000000000000, 100000000000000, 0, 0],
   [100000000000000, 100000000000000, 100000000000000, 100000000000000, 0, 0, 0],
   [100000000000000, 100000000000000, 100000000000000, 0, 0, 0, 0],
   [100000000000000, 100000000000000, 0, 0, 0, 0, 0],
   [100000000000000, 0, 0, 0, 0, 0, 0],
   [100000000000000, 100000000000000, 25000000000000, 0, 0, 0, 0],
   [100000000000000, 100000000000000, 100000000000000, 25000000000000, 0, 0, 0],
   [100000000000000, 100000000000000, 100000000000000, 0, 0, 0, 0],
   [100000000000000, 0, 0, 0, 0, 0, 0],
   [100000000000000, 100000000000000, 0, 0, 0, 0, 0],
   [100000000000000, 100000000000000, 0, 0, 0, 0, 0],
   [100000000000000, 100000000000000, 0, 0, 0, 0, 0],
   [100000000000000, 100000000000000, 0, 0, 0, 0, 0],
   [100000000000000, 100000000000000, 0, 0, 0, 0, 0],
   [100000000000000, 100000000000000, 0, 0, 0, 0, 0],
   [100000000000000, 100000000000000, 0, 0, 0, 0, 0],
   [100000000000000, 100000000000000, 0, 0, 0, 0, 0],
   [100000000000000, 100000000000000, 0, 0, 0, 0, 0],
   [100000000000000, 100000000000000, 0, 0, 0, 0, 0],
   [100000000000000, 100000000000000, 0, 0, 0, 0, 0],
   [100000000000000, 100000000000000, 0, 0, 0, 0, 0],
   [100000000000000, 100000000000000, 0, 0, 0, 0, 0],
   [100000000000000, 100000000000000, 100000000000000, 100000000000000, 0, 0, 0],
   [100000000000000, 100000000000000, 100000000000000, 100000000000000, 0, 0, 0],
   [100000000000000, 100000000000000, 100000000000000, 0, 0, 0, 0],
   [100000000000000, 100000000000000, 100000000000000, 0, 0, 0, 0],
   [100000000000000, 100000000000000, 100000000000000, 0, 0, 0, 0],
   [100000000000000, 100000000000000, 100000000000000, 100000000000000, 100000000000000, 0, 0],
   [100000000000000, 100000000000000, 100000000000000, 0, 0, 0, 0],
   [100000000000000, 100000000000000, 0, 0, 0, 0, 0],
   [100000000000000, 100000000000000, 0, 0, 0, 0, 0],
   [100000000000000, 100000000000000, 100000000000000, 100000000000000, 0, 0, 0],
   [100000000000000, 100000000000000, 100000000000000, 100000000000000, 100000000000000, 0, 0],
   [100000000000000, 100000000000000, 100000000000000, 100000000000000, 0, 0, 0],
   [100000000000000, 100000000000000, 100000000000000, 0, 0, 0, 0],
   [100000000000000, 100000000000000, 0, 0, 0, 0, 0],
   [100000000000000, 0, 0, 0, 0, 0, 0],
   [100000000000000, 100000000000000, 0, 0, 0, 0, 0],
   [100000000000000, 100000000000000, 100000000000000, 0, 0, 0, 0],
   [100000000000000, 100000000000000, 100000000000000, 100000000000000, 100000000000000, 100000000000000, 100000000000000],
   [100000000000000, 100000000000000, 100000000000000, 100000000000000, 100000000000000, 0, 0],
   [100000000000000, 100000000000000, 100000000000000, 100000000000000, 100000000000000, 100000000000000, 0],
   [100000000000000, 100000000000000, 0, 100000000000000, 100000000000000, 100000000000000, 100000000000000],
   [100000000000000, 100000000000000, 100000000000000, 100000000000000, 100000000000000, 100000000000000, 100000000000000],
   [100000000000000, 100000000000000, 100000000000000, 100000000000000, 100000000000000, 100000000000000, 100000000000000],
   [100000000000000, 100000000000000, 100000000000000, 100000000000000, 0, 100000000000000, 100000000000000],
   [100000000000000, 100000000000000, 100000000000000, 100000000000000, 100000000000000, 100000000000000, 100000000000000],
   [100000000000000, 100000000000000, 100000000000000, 100000000000000, 100000000000000, 0, 0],
   [100000000000000, 100000000000000, 100000000000000, 100000000000000, 100000000000000, 0, 100000000000000],
   [100000000000000, 100000000000000, 100000000000000, 100000000000000, 100000000000000, 100000000000000, 100000000000000],
   [100000000000000, 100000000000000, 100000000000000, 100000000000000, 100000000000000, 100000000000000, 100000000000000],
   [100000000000000, 100000000000000, 100000000000000, 100000000000000, 100000000000000, 0, 0],
   [100000000000000, 100000000000000, 100000000000000, 100000000000000, 100000000000000, 100000000000000, 100000000000000],
   [100000000000000, 100000000000000, 100000000000000, 100000000000000, 100000000000000, 100000000000000, 100000000000000]]

/-- `reference/d4/params.py:20498-21438 refscount`, times `10^1` -/
def refscount : List (List Nat) := [
   [0, 0, 0, 0, 0, 0, 0],
   [0, 0, 0, 0, 0, 0, 0],
   [0, 0, 0, 0, 0, 0, 0],
   [0, 10, 40, 0, 0, 0, 0],
   [0, 10, 20, 40, 0, 0, 0],
   [0, 10, 20, 30, 60, 0, 0],
   [0, 10, 20, 40, 60, 60, 10],
   [0, 10, 20, 30, 0, 0, 0],
   [0, 10, 20, 0, 0, 0, 0],
   [0, 10, 0, 0, 0, 0, 0],
   [0, 0, 0, 0, 0, 0, 0],
   [0, 10, 40, 0, 0, 0, 0],
   [0, 10, 20, 40, 0, 0, 0],
   [0, 10, 20, 30, 0, 0, 0],
   [0, 10, 20, 40, 60, 0, 0],
   [0, 10, 20, 30, 0, 0, 0],
   [0, 10, 20, 0, 0, 0, 0],
   [0, 10, 0, 0, 0, 0, 0],
   [0, 0, 0, 0, 0, 0, 0],
   [0, 10, 40, 0, 0, 0, 0],
   [0, 10, 20, 40, 0, 0, 0],
   [0, 20, 30, 15, 0, 0, 0],
   [0, 20, 40, 40, 0, 0, 0],
   [0, 20, 30, 50, 0, 0, 0],
   [0, 20, 120, 60, 0, 0, 0],
   [0, 20, 110, 0, 0, 0, 0],
   [0, 20, 100, 0, 0, 0, 0],
   [0, 20, 30, 90, 0, 0, 0],
   [0, 20, 80, 80, 0, 0, 0],
   [0, 10, 0, 0, 0, 0, 0],
   [0, 20, 0, 0, 0, 0, 0],
   [0, 10, 20, 0, 0, 0, 0],
   [0, 10, 20, 30, 40, 0, 0],
   [0, 10, 20, 30, 0, 0, 0],
   [0, 10, 20, 0, 0, 0, 0],
   [0, 10, 0, 0, 0, 0, 0],
   [0, 0, 0, 0, 0, 0, 0],
   [0, 10, 40, 0, 0, 0, 0],
   [0, 10, 20, 40, 0, 0, 0],
   [0, 20, 30, 0, 0, 0, 0],
   [0, 20, 40, 40, 0, 0, 0],
   [0, 20, 30, 50, 0, 0, 0],
   [0, 20, 120, 60, 0, 0, 0],
   [0, 20, 110, 0, 0, 0, 0],
   [0, 20, 100, 0, 0, 0, 0],
   [0, 20, 30, 50, 0, 0, 0],
   [0, 20, 80, 0, 0, 0, 0],
   [0, 10, 0, 0, 0, 0, 0],
   [0, 20, 0, 0, 0, 0, 0],
   [0, 10, 20, 30, 0, 0, 0],
   [0, 10, 20, 30, 40, 0, 0],
   [0, 10, 20, 30, 0, 0, 0],
   [0, 10, 20, 0, 0, 0, 0],
   [0, 10, 0, 0, 0, 0, 0],
   [0, 0, 0, 0, 0, 0, 0],
   [0, 10, 40, 0, 0, 0, 0],
   [0, 10, 20, 40, 0, 0, 0],
   [0, 20, 30, 0, 0, 0, 0],
   [30, 0, 0, 0, 0, 0, 0],
   [0, 30, 0, 0, 0, 0, 0],
   [0, 30, 0, 0, 0, 0, 0],
   [0, 30, 0, 0, 0, 0, 0],
   [0, 30, 0, 0, 0, 0, 0],
   [0, 20, 0, 0, 0, 0, 0],
   [0, 30, 0, 0, 0, 0, 0],
   [0, 30, 0, 0, 0, 0, 0],
   [0, 30, 0, 0, 0, 0, 0],
   [0, 30, 0, 0, 0, 0, 0],
   [0, 30, 0, 0, 0, 0, 0],
   [0, 30, 0, 0, 0, 0, 0],
   [0, 30, 0, 0, 0, 0, 0],
   [0, 30, 0, 0, 0, 0, 0],
   [0, 20, 40, 40, 0, 0, 0],
   [0, 20, 30, 50, 0, 0, 0],
   [0, 20, 120, 0, 0, 0, 0],
   [0, 20, 110, 0, 0, 0, 0],
   [0, 20, 100, 0, 0, 0, 0],
   [0, 20, 30, 40, 50, 0, 0],
   [0, 20, 80, 0, 0, 0, 0],
   [0, 10, 0, 0, 0, 0, 0],
   [0, 20, 0, 0, 0, 0, 0],
   [0, 10, 20, 30, 0, 0, 0],
   [0, 10, 20, 30, 40, 0, 0],
   [0, 10, 20, 30, 0, 0, 0],
   [0, 10, 20, 0, 0, 0, 0],
   [0, 10, 0, 0, 0, 0, 0],
   [0, 0, 0, 0, 0, 0, 0],
   [0, 10, 0, 0, 0, 0, 0],
   [0, 10, 20, 0, 0, 0, 0],
   [0, 10, 20, 30, 40, 50, 60],
   [0, 10, 20, 30, 40, 0, 0],
   [0, 10, 20, 30, 40, 50, 0],
   [0, 10, 0, 30, 40, 50, 60],
   [0, 10, 20, 30, 40, 50, 60],
   [0, 10, 20, 30, 40, 50, 60],
   [0, 10, 20, 30, 0, 50, 60],
   [0, 10, 20, 30, 40, 50, 60],
   [0, 10, 20, 30, 40, 0, 0],
   [0, 10, 20, 30, 40, 0, 60],
   [0, 10, 20, 30, 40, 50, 60],
   [0, 10, 20, 30, 40, 50, 60],
   [0, 10, 20, 30, 40, 0, 0],
   [0, 10, 20, 30, 40, 50, 60],
   [0, 10, 20, 30, 40, 50, 60]]

/-- `reference/d4/params.py:21659-21681 secscale`, times `10^7` -/
def secscale : List (List Nat) := [
   [0],
   [5000000],
   [0],
   [0],
   [0],
   [0],
   [1666667],
   [10000000],
   [10000000],
   [5000000],
   [5000000],
   [5000000],
   [0],
   [0],
   [0],
   [0],
   [0],
   [5000000]]

/-- `reference/d4/params.py:21683-22137 secalpha`, times `10^7` -/
def secalpha : List (List Nat) := [
   [0, 0, 0, 0, 0, 0, 0, 0, 0, 0, 0, 0, 0, 0, 0, 0, 0, 0, 0, 0, 0, 0, 0],
   [54415160, 53912720, 52466780, 47462570, 41122050, 34827990, 29256260, 24586020, 20763900, 17660350, 15138980, 13080740, 9987770, 7833600, 6286810, 5145050, 4281480, 2867670, 2047270, 1187560, 772270, 349350, 197880],
   [54415160, 53912720, 52466780, 47462570, 41122050, 34827990, 29256260, 24586020, 20763900, 17660350, 15138980, 13080740, 9987770, 7833600, 6286810, 5145050, 4281480, 2867670, 2047270, 1187560, 772270, 349350, 197880],
   [0, 0, 0, 0, 0, 0, 0, 0, 0, 0, 0, 0, 0, 0, 0, 0, 0, 0, 0, 0, 0, 0, 0],
   [0, 0, 0, 0, 0, 0, 0, 0, 0, 0, 0, 0, 0, 0, 0, 0, 0, 0, 0, 0, 0, 0, 0],
   [0, 0, 0, 0, 0, 0, 0, 0, 0, 0, 0, 0, 0, 0, 0, 0, 0, 0, 0, 0, 0, 0, 0],
   [685832590, 675115260, 646123080, 561286650, 474318310, 399459190, 337814890, 287553020, 246561470, 212992860, 185340330, 162406480, 127133690, 101832050, 83194640, 69133790, 58298100, 40106600, 29230920, 17494800, 11654830, 5523060, 3242020],
   [138928580, 137335660, 132948950, 119342710, 104022050, 89706190, 77218140, 66635680, 57772340, 50371340, 44181730, 38984410, 30872240, 24956330, 20539790, 17170460, 14549570, 10095450, 7395630, 4445600, 2961500, 1392520, 809340],
   [129390420, 128215110, 124887870, 113861750, 100547130, 87593060, 76055220, 66166590, 57823860, 50816990, 44924840, 39949630, 32117190, 26333830, 21960400, 18580780, 15918740, 11306230, 8437390, 5212300, 3539970, 1716310, 1015580],
   [103975870, 103144230, 100802310, 93150480, 84027020, 75095120, 66939110, 59700690, 53361820, 47845300, 43054570, 38891980, 32100590, 26878840, 22798670, 19559530, 16950280, 12295900, 9306730, 5848620, 4008950, 1959850, 1160240],
   [116125430, 115410500, 113332410, 105895270, 95886300, 85228410, 75106350, 66043140, 58164280, 51406550, 45636850, 40709240, 32858130, 26994530, 22527560, 19059510, 16320270, 11565830, 8609730, 5294970, 3582750, 1725840, 1018070],
   [81455493, 81058081, 79903083, 75756433, 70109396, 63972855, 57985381, 52452249, 47476246, 43059510, 39161167, 35725710, 30018411, 25535671, 21967930, 19088609, 16733812, 12435728, 9590400, 6186562, 4313276, 2159017, 1291912],
   [0, 0, 0, 0, 0, 0, 0, 0, 0, 0, 0, 0, 0, 0, 0, 0, 0, 0, 0, 0, 0, 0, 0],
   [0, 0, 0, 0, 0, 0, 0, 0, 0, 0, 0, 0, 0, 0, 0, 0, 0, 0, 0, 0, 0, 0, 0],
   [0, 0, 0, 0, 0, 0, 0, 0, 0, 0, 0, 0, 0, 0, 0, 0, 0, 0, 0, 0, 0, 0, 0],
   [0, 0, 0, 0, 0, 0, 0, 0, 0, 0, 0, 0, 0, 0, 0, 0, 0, 0, 0, 0, 0, 0, 0],
   [0, 0, 0, 0, 0, 0, 0, 0, 0, 0, 0, 0, 0, 0, 0, 0, 0, 0, 0, 0, 0, 0, 0],
   [305968154, 302907908, 294281025, 265588368, 230571447, 196470649, 166420247, 141130996, 120267253, 103165485, 89140109, 77590140, 60042243, 47671234, 38705622, 32039005, 26965878, 18588040, 13665825, 8411737, 5795824, 2981883, 1870572]]

end TadDftd4.Data
