/-!
# Reference polarizabilities

Generated by `tools/gen_data.py` from `reference/d4/params.py`; do not edit.
-/

namespace TadDftd4.Data

/-- `reference/d4/params.py:1142-19554 refalpha`, times `10^7` -/
def refalpha0 : List (List Nat) := [[0, 0, 0, 0, 0, 0, 0, 0, 0, 0, 0, 0, 0, 0, 0, 0, 0, 0, 0, 0, 0,
   0, 0], [0, 0, 0, 0, 0, 0, 0, 0, 0, 0, 0, 0, 0, 0, 0, 0, 0, 0, 0, 0, 0, 0, 0], [0, 0, 0, 0, 0, 0,
   0, 0, 0, 0, 0, 0, 0, 0, 0, 0, 0, 0, 0, 0, 0, 0, 0], [0, 0, 0, 0, 0, 0, 0, 0, 0, 0, 0, 0, 0, 0,
   0, 0, 0, 0, 0, 0, 0, 0, 0], [0, 0, 0, 0, 0, 0, 0, 0, 0, 0, 0, 0, 0, 0, 0, 0, 0, 0, 0, 0, 0, 0,
   0], [0, 0, 0, 0, 0, 0, 0, 0, 0, 0, 0, 0, 0, 0, 0, 0, 0, 0, 0, 0, 0, 0, 0], [0, 0, 0, 0, 0, 0, 0,
   0, 0, 0, 0, 0, 0, 0, 0, 0, 0, 0, 0, 0, 0, 0, 0]]
/-- `reference/d4/params.py:1142-19554 refalpha`, row 1 -/
def refalpha1 : List (List Nat) := [[50540160, 49668210, 47244390, 39707860, 31655030, 24886460,
   19670460, 15750840, 12804290, 10565330, 8839250, 7488080, 5550060, 4262920, 3369390, 2726050,
   2248580, 1483870, 1049920, 603100, 390250, 175590, 99250], [54415160, 53912720, 52466780,
   47462570, 41122050, 34827990, 29256260, 24586020, 20763900, 17660350, 15138980, 13080740,
   9987770, 7833600, 6286810, 5145050, 4281480, 2867670, 2047270, 1187560, 772270, 349350, 197880],
   [0, 0, 0, 0, 0, 0, 0, 0, 0, 0, 0, 0, 0, 0, 0, 0, 0, 0, 0, 0, 0, 0, 0], [0, 0, 0, 0, 0, 0, 0, 0,
   0, 0, 0, 0, 0, 0, 0, 0, 0, 0, 0, 0, 0, 0, 0], [0, 0, 0, 0, 0, 0, 0, 0, 0, 0, 0, 0, 0, 0, 0, 0,
   0, 0, 0, 0, 0, 0, 0], [0, 0, 0, 0, 0, 0, 0, 0, 0, 0, 0, 0, 0, 0, 0, 0, 0, 0, 0, 0, 0, 0, 0], [0,
   0, 0, 0, 0, 0, 0, 0, 0, 0, 0, 0, 0, 0, 0, 0, 0, 0, 0, 0, 0, 0, 0]]
/-- `reference/d4/params.py:1142-19554 refalpha`, row 2 -/
def refalpha2 : List (List Nat) := [[14546360, 14502130, 14371400, 13875900, 13135450, 12243600,
   11286130, 10327800, 9410580, 8557720, 7779290, 7077040, 5886400, 4940120, 4187090, 3583530,
   3095160, 2223000, 1665090, 1026240, 691900, 327930, 189800], [0, 0, 0, 0, 0, 0, 0, 0, 0, 0, 0,
   0, 0, 0, 0, 0, 0, 0, 0, 0, 0, 0, 0], [0, 0, 0, 0, 0, 0, 0, 0, 0, 0, 0, 0, 0, 0, 0, 0, 0, 0, 0,
   0, 0, 0, 0], [0, 0, 0, 0, 0, 0, 0, 0, 0, 0, 0, 0, 0, 0, 0, 0, 0, 0, 0, 0, 0, 0, 0], [0, 0, 0, 0,
   0, 0, 0, 0, 0, 0, 0, 0, 0, 0, 0, 0, 0, 0, 0, 0, 0, 0, 0], [0, 0, 0, 0, 0, 0, 0, 0, 0, 0, 0, 0,
   0, 0, 0, 0, 0, 0, 0, 0, 0, 0, 0], [0, 0, 0, 0, 0, 0, 0, 0, 0, 0, 0, 0, 0, 0, 0, 0, 0, 0, 0, 0,
   0, 0, 0]]
/-- `reference/d4/params.py:1142-19554 refalpha`, row 3 -/
def refalpha3 : List (List Nat) := [[1496846930, 1010937750, 516672830, 180181080, 89093460,
   53309030, 35697190, 25730730, 19537540, 15421740, 12543870, 10449370, 7658330, 5922860, 4760820,
   3938140, 3330090, 2345470, 1766850, 1133040, 802740, 424220, 264160], [277934790, 259220070,
   218214140, 141717810, 94824880, 67129090, 49857250, 38465020, 30589760, 24932250, 20736610,
   17541010, 13073430, 10165020, 8161580, 6719100, 5643080, 3893270, 2870170, 1768550, 1211260,
   602840, 362580], [846459010, 836841238, 809655079, 720284169, 614818132, 515922762, 431612588,
   362527416, 306710866, 261700904, 225260442, 195557200, 150928030, 119795535, 97376006, 80762262,
   68136584, 47267579, 34948520, 21681444, 14997611, 7718181, 4815951], [0, 0, 0, 0, 0, 0, 0, 0, 0,
   0, 0, 0, 0, 0, 0, 0, 0, 0, 0, 0, 0, 0, 0], [0, 0, 0, 0, 0, 0, 0, 0, 0, 0, 0, 0, 0, 0, 0, 0, 0,
   0, 0, 0, 0, 0, 0], [0, 0, 0, 0, 0, 0, 0, 0, 0, 0, 0, 0, 0, 0, 0, 0, 0, 0, 0, 0, 0, 0, 0], [0, 0,
   0, 0, 0, 0, 0, 0, 0, 0, 0, 0, 0, 0, 0, 0, 0, 0, 0, 0, 0, 0, 0]]
/-- `reference/d4/params.py:1142-19554 refalpha`, row 4 -/
def refalpha4 : List (List Nat) := [[428790460, 399295910, 331319060, 198584460, 120562070,
   78731240, 55003700, 40522140, 31097180, 24633930, 20011630, 16591860, 11965720, 9061710,
   7119670, 5756820, 4763260, 3199380, 2321350, 1411470, 965570, 488560, 302000], [339191750,
   306229690, 251809150, 171197860, 120494810, 87823960, 66233290, 51483500, 41059930, 33462160,
   27771820, 23408840, 17276510, 13276250, 10528460, 8562260, 7107890, 4781520, 3456310, 2073370,
   1396630, 681800, 409330], [203763510, 199881660, 189207290, 156997430, 123941440, 96994520,
   76613340, 61448630, 50098820, 41485350, 34841730, 29633890, 22143260, 17146750, 13662970,
   11143890, 9266450, 6239030, 4502460, 2684610, 1795900, 862930, 511440], [508062040, 500592716,
   480905154, 425028663, 367056665, 315232793, 271066190, 234118521, 203403941, 177870106,
   156568911, 138703586, 110817107, 90435022, 75156407, 63438199, 54266858, 38505033, 28781608,
   19058183, 12248615, 6029055, 3602096], [0, 0, 0, 0, 0, 0, 0, 0, 0, 0, 0, 0, 0, 0, 0, 0, 0, 0, 0,
   0, 0, 0, 0], [0, 0, 0, 0, 0, 0, 0, 0, 0, 0, 0, 0, 0, 0, 0, 0, 0, 0, 0, 0, 0, 0, 0], [0, 0, 0, 0,
   0, 0, 0, 0, 0, 0, 0, 0, 0, 0, 0, 0, 0, 0, 0, 0, 0, 0, 0]]
/-- `reference/d4/params.py:1142-19554 refalpha`, row 5 -/
def refalpha5 : List (List Nat) := [[221068880, 213442260, 194317910, 146694210, 106975470,
   79023200, 59922100, 46684490, 37269880, 30389440, 25231990, 21277390, 15720620, 12095680,
   9603270, 7816570, 6491900, 4364560, 3146920, 1873730, 1252700, 602010, 356010], [205521070,
   199101690, 183552210, 145802680, 113056180, 88165140, 69794390, 56206180, 46022690, 38263850,
   32251530, 27516720, 20664510, 16059710, 12828710, 10479810, 8721210, 5869300, 4224710, 2500750,
   1661340, 788140, 462310], [202806350, 191635070, 178009360, 148840980, 120983160, 97836060,
   79569310, 65370310, 54328530, 45678260, 38830910, 33348630, 25273350, 19752950, 15835380,
   12965230, 10804740, 7281530, 5240250, 3095240, 2050450, 966460, 564440], [173839000, 171992340,
   166725580, 148986510, 127407520, 106754850, 88969080, 74349140, 62546920, 53056760, 45401840,
   39186610, 29899200, 23464510, 18858730, 15464990, 12900300, 8701190, 6260260, 3691130, 2439620,
   1143850, 665550], [333389310, 330011270, 320357710, 287639060, 247422160, 208503600, 174641170,
   146555110, 123709610, 105223950, 90236300, 78016400, 59670990, 46901690, 37733460, 30963780,
   25840490, 17440470, 12552220, 7404570, 4896440, 2299100, 1339700], [0, 0, 0, 0, 0, 0, 0, 0, 0,
   0, 0, 0, 0, 0, 0, 0, 0, 0, 0, 0, 0, 0, 0], [0, 0, 0, 0, 0, 0, 0, 0, 0, 0, 0, 0, 0, 0, 0, 0, 0,
   0, 0, 0, 0, 0, 0]]
/-- `reference/d4/params.py:1142-19554 refalpha`, row 6 -/
def refalpha6 : List (List Nat) := [[123555340, 121386640, 115492610, 97999490, 79916820, 64691120,
   52715550, 43463700, 36298580, 30691570, 26246820, 22676780, 17384300, 13729830, 11110210,
   9172590, 7701000, 5269110, 3835030, 2298730, 1535810, 732580, 431920], [145482810, 142754640,
   133786710, 113492310, 94185310, 77719120, 64361850, 53728750, 45287720, 38553340, 33134960,
   28732790, 22127670, 17514880, 14184590, 11710210, 9825780, 6705550, 4865370, 2899040, 1927160,
   910580, 533330], [230116230, 227312670, 219447640, 194160980, 165257670, 138835800, 116644030,
   98566400, 83954220, 72118160, 62469570, 54540580, 42475560, 33914730, 27655050, 22955930,
   19346700, 13305920, 9701360, 5811850, 3874320, 1836940, 1078100], [274537640, 270921900,
   260934140, 230050050, 196170750, 165717410, 140107840, 119057630, 101859920, 87791490, 76227700,
   66661200, 52000230, 41529630, 33845150, 28065480, 23623130, 16190990, 11765830, 7009620,
   4652560, 2188710, 1277540], [283352760, 280932470, 273990360, 250151020, 220076950, 189989890,
   162867160, 139588710, 120051730, 103795410, 90286370, 79030880, 61676970, 49231280, 40083160,
   33200870, 27913060, 19077980, 13830030, 8207370, 5431290, 2541200, 1477570], [685832590,
   675115260, 646123080, 561286650, 474318310, 399459190, 337814890, 287553020, 246561470,
   212992860, 185340330, 162406480, 127133690, 101832050, 83194640, 69133790, 58298100, 40106600,
   29230920, 17494800, 11654830, 5523060, 3242020], [77402500, 76643000, 74486700, 67286500,
   58533600, 50045500, 42585700, 36316200, 31142900, 26894300, 23397600, 20503600, 16066900,
   12894400, 10561100, 8801010, 7443600, 5158280, 3784030, 2287990, 1535500, 736385, 435460]]
/-- `reference/d4/params.py:1142-19554 refalpha`, row 7 -/
def refalpha7 : List (List Nat) := [[75385090, 74657840, 72592230, 65708420, 57412090, 49445040,
   42474110, 36605820, 31734720, 27700380, 24347170, 21542670, 17174610, 13984350, 11591760,
   9755810, 8318860, 5852590, 4337270, 2654650, 1792040, 860960, 507150], [98340890, 96980440,
   93521500, 83811310, 73184230, 63183850, 54407240, 46956550, 40720980, 35523310, 31184230,
   27545880, 21872670, 17734490, 14640490, 12275070, 10430710, 7283800, 5365400, 3254160, 2182610,
   1038080, 607780], [185281530, 183270930, 177675350, 159940890, 139674690, 120720960, 104237930,
   90298300, 78623050, 68857300, 60666250, 53763210, 42923510, 34950320, 28948440, 24334700,
   20721210, 14520950, 10718490, 6513790, 4372510, 2081480, 1219450], [138928580, 137335660,
   132948950, 119342710, 104022050, 89706190, 77218140, 66635680, 57772340, 50371340, 44181730,
   38984410, 30872240, 24956330, 20539790, 17170460, 14549570, 10095450, 7395630, 4445600, 2961500,
   1392520, 809340], [116125430, 115410500, 113332410, 105895270, 95886300, 85228410, 75106350,
   66043140, 58164280, 51406550, 45636850, 40709240, 32858130, 26994530, 22527560, 19059510,
   16320270, 11565830, 8609730, 5294970, 3582750, 1725840, 1018070], [0, 0, 0, 0, 0, 0, 0, 0, 0, 0,
   0, 0, 0, 0, 0, 0, 0, 0, 0, 0, 0, 0, 0], [0, 0, 0, 0, 0, 0, 0, 0, 0, 0, 0, 0, 0, 0, 0, 0, 0, 0,
   0, 0, 0, 0, 0]]
/-- `reference/d4/params.py:1142-19554 refalpha`, row 8 -/
def refalpha8 : List (List Nat) := [[51967090, 51644300, 50715690, 47484500, 43273530, 38854260,
   34648010, 30838640, 27478290, 24553310, 22021600, 19832410, 16287590, 13587170, 11492470,
   9838790, 8512370, 6158310, 4654260, 2921270, 2001820, 978590, 579230], [72941570, 72356790,
   70728280, 65406890, 58872890, 52288430, 46198180, 40794700, 36098730, 32056430, 28587920,
   25610180, 20831650, 17231230, 14466600, 12304460, 10585030, 7570550, 5672680, 3517810, 2391180,
   1155270, 679560], [93715840, 92917670, 90663960, 83227770, 74235050, 65392070, 57386200,
   50398020, 44396540, 39274640, 34907530, 31176580, 25222470, 20764190, 17359450, 14709930,
   12612520, 8959550, 6678320, 4109820, 2778660, 1331600, 779780], [103975870, 103144230,
   100802310, 93150480, 84027020, 75095120, 66939110, 59700690, 53361820, 47845300, 43054570,
   38891980, 32100590, 26878840, 22798670, 19559530, 16950280, 12295900, 9306730, 5848620, 4008950,
   1959850, 1160240], [0, 0, 0, 0, 0, 0, 0, 0, 0, 0, 0, 0, 0, 0, 0, 0, 0, 0, 0, 0, 0, 0, 0], [0, 0,
   0, 0, 0, 0, 0, 0, 0, 0, 0, 0, 0, 0, 0, 0, 0, 0, 0, 0, 0, 0, 0], [0, 0, 0, 0, 0, 0, 0, 0, 0, 0,
   0, 0, 0, 0, 0, 0, 0, 0, 0, 0, 0, 0, 0]]
/-- `reference/d4/params.py:1142-19554 refalpha`, row 9 -/
def refalpha9 : List (List Nat) := [[36338390, 36196960, 35783940, 34279380, 32173720, 29799290,
   27383490, 25057910, 22889990, 20908140, 19117910, 17512000, 14795260, 12627740, 10886880,
   9474060, 8314380, 6189740, 4778550, 3086410, 2153540, 1079130, 645990], [54170520, 53885820,
   53062630, 50155720, 46285580, 42137360, 38104020, 34368990, 30998560, 27999440, 25350070,
   23017150, 19155660, 16145960, 13772910, 11876550, 10340620, 7578460, 5783980, 3678490, 2541230,
   1255490, 746120], [0, 0, 0, 0, 0, 0, 0, 0, 0, 0, 0, 0, 0, 0, 0, 0, 0, 0, 0, 0, 0, 0, 0], [0, 0,
   0, 0, 0, 0, 0, 0, 0, 0, 0, 0, 0, 0, 0, 0, 0, 0, 0, 0, 0, 0, 0], [0, 0, 0, 0, 0, 0, 0, 0, 0, 0,
   0, 0, 0, 0, 0, 0, 0, 0, 0, 0, 0, 0, 0], [0, 0, 0, 0, 0, 0, 0, 0, 0, 0, 0, 0, 0, 0, 0, 0, 0, 0,
   0, 0, 0, 0, 0], [0, 0, 0, 0, 0, 0, 0, 0, 0, 0, 0, 0, 0, 0, 0, 0, 0, 0, 0, 0, 0, 0, 0]]
/-- `reference/d4/params.py:1142-19554 refalpha`, row 10 -/
def refalpha10 : List (List Nat) := [[26227940, 26160810, 25963010, 25221150, 24130070, 22831850,
   21442240, 20040890, 18677460, 17380750, 16165850, 15039070, 13049180, 11383170, 9993630,
   8832020, 7855560, 6010260, 4739350, 3155110, 2245720, 1157090, 702160], [0, 0, 0, 0, 0, 0, 0, 0,
   0, 0, 0, 0, 0, 0, 0, 0, 0, 0, 0, 0, 0, 0, 0], [0, 0, 0, 0, 0, 0, 0, 0, 0, 0, 0, 0, 0, 0, 0, 0,
   0, 0, 0, 0, 0, 0, 0], [0, 0, 0, 0, 0, 0, 0, 0, 0, 0, 0, 0, 0, 0, 0, 0, 0, 0, 0, 0, 0, 0, 0], [0,
   0, 0, 0, 0, 0, 0, 0, 0, 0, 0, 0, 0, 0, 0, 0, 0, 0, 0, 0, 0, 0, 0], [0, 0, 0, 0, 0, 0, 0, 0, 0,
   0, 0, 0, 0, 0, 0, 0, 0, 0, 0, 0, 0, 0, 0], [0, 0, 0, 0, 0, 0, 0, 0, 0, 0, 0, 0, 0, 0, 0, 0, 0,
   0, 0, 0, 0, 0, 0]]
/-- `reference/d4/params.py:1142-19554 refalpha`, row 11 -/
def refalpha11 : List (List Nat) := [[1709285310, 1191946230, 628166710, 222250350, 110609650,
   67225680, 46167630, 34360280, 27038020, 22145400, 18682650, 16117710, 12586520, 10272610,
   8636930, 7418060, 6474800, 4849210, 3823130, 2620130, 1947130, 1108050, 717200], [408166710,
   373885700, 302959980, 183845350, 118437670, 82528940, 61199710, 47572100, 38333160, 31762600,
   26903860, 23193520, 17948680, 14454310, 11979870, 10146980, 8742120, 6365370, 4905090, 3247020,
   2353690, 1290210, 819540], [926411774, 914243783, 880445743, 774364073, 656163384, 549685877,
   460979628, 389126798, 331338025, 284756146, 246963717, 216046368, 169269705, 136278912,
   112244983, 94230737, 80391231, 57141662, 43121698, 29652901, 19616546, 10496861, 6661557], [0,
   0, 0, 0, 0, 0, 0, 0, 0, 0, 0, 0, 0, 0, 0, 0, 0, 0, 0, 0, 0, 0, 0], [0, 0, 0, 0, 0, 0, 0, 0, 0,
   0, 0, 0, 0, 0, 0, 0, 0, 0, 0, 0, 0, 0, 0], [0, 0, 0, 0, 0, 0, 0, 0, 0, 0, 0, 0, 0, 0, 0, 0, 0,
   0, 0, 0, 0, 0, 0], [0, 0, 0, 0, 0, 0, 0, 0, 0, 0, 0, 0, 0, 0, 0, 0, 0, 0, 0, 0, 0, 0, 0]]
/-- `reference/d4/params.py:1142-19554 refalpha`, row 12 -/
def refalpha12 : List (List Nat) := [[756666810, 686955210, 539153050, 292692840, 168382330,
   106997010, 73793160, 54168470, 41702110, 33314920, 27405460, 23081520, 17285400, 13653680,
   11201210, 9447260, 8135180, 5959160, 4626290, 3079420, 2219990, 1188580, 745220], [650041490,
   573670330, 446926220, 268427890, 172249920, 118363720, 86109420, 65554130, 51738650, 42034870,
   34965440, 29655110, 22334680, 17623610, 14391360, 12060360, 10311360, 7419490, 5670970, 3688080,
   2617440, 1369550, 847940], [345442750, 335344340, 308656630, 236561780, 173397030, 128432530,
   97723270, 76521380, 61504810, 50567630, 42388110, 36123090, 27314370, 21542960, 17542370,
   14641950, 12461470, 8862330, 6703080, 4289380, 3010120, 1548430, 949500], [746298821, 726677188,
   679314704, 565001225, 464504007, 384956042, 323037179, 274626661, 236358080, 205710128,
   180838250, 160395958, 129096858, 106544671, 89710814, 76771288, 66579370, 48778230, 38586312,
   28394394, 17107782, 8784693, 5365232], [0, 0, 0, 0, 0, 0, 0, 0, 0, 0, 0, 0, 0, 0, 0, 0, 0, 0, 0,
   0, 0, 0, 0], [0, 0, 0, 0, 0, 0, 0, 0, 0, 0, 0, 0, 0, 0, 0, 0, 0, 0, 0, 0, 0, 0, 0], [0, 0, 0, 0,
   0, 0, 0, 0, 0, 0, 0, 0, 0, 0, 0, 0, 0, 0, 0, 0, 0, 0, 0]]
/-- `reference/d4/params.py:1142-19554 refalpha`, row 13 -/
def refalpha13 : List (List Nat) := [[608923430, 563100140, 467886820, 295825800, 189999900,
   128554770, 91653720, 68351170, 52901970, 42211880, 34539770, 28860210, 21186190, 16376640,
   13157820, 10890010, 9224950, 6556710, 5002950, 3292210, 2377920, 1286420, 807650], [562109890,
   524017100, 443132520, 294084250, 199025080, 140717810, 103773750, 79372390, 62599590, 50653090,
   41877030, 35255730, 26117110, 20262590, 16284670, 13453070, 11360060, 7989100, 6026620, 3886840,
   2764850, 1461420, 906750], [430078740, 403049500, 357272810, 268099970, 198081180, 148306090,
   113606550, 89171350, 71607780, 58687510, 48965000, 41493490, 30979680, 24116390, 19395410,
   16007580, 13490360, 9419730, 7048990, 4480100, 3150480, 1635630, 1005420], [322831180,
   317115930, 301255060, 252170820, 200120360, 156749350, 123626340, 98945680, 80530620, 66626970,
   55965060, 47654850, 35787890, 27932030, 22479080, 18542580, 15606340, 10843300, 8067590,
   5072070, 3535600, 1809750, 1104040], [0, 0, 0, 0, 0, 0, 0, 0, 0, 0, 0, 0, 0, 0, 0, 0, 0, 0, 0,
   0, 0, 0, 0], [0, 0, 0, 0, 0, 0, 0, 0, 0, 0, 0, 0, 0, 0, 0, 0, 0, 0, 0, 0, 0, 0, 0], [0, 0, 0, 0,
   0, 0, 0, 0, 0, 0, 0, 0, 0, 0, 0, 0, 0, 0, 0, 0, 0, 0, 0]]
/-- `reference/d4/params.py:1142-19554 refalpha`, row 14 -/
def refalpha14 : List (List Nat) := [[389490650, 375127500, 339244170, 251761170, 180845250,
   131765080, 98616700, 75917060, 59982420, 48493400, 39995310, 33561160, 24668840, 18982190,
   15134620, 12411020, 10410670, 7226000, 5405560, 3465530, 2471760, 1332610, 845050], [380097750,
   366441270, 333701090, 255897470, 190941400, 143691430, 110297080, 86569570, 69417830, 56758970,
   47217950, 39882980, 29570580, 22858030, 18259530, 14975500, 12548440, 8660940, 6430810, 4060490,
   2858610, 1507420, 943940], [372763200, 362054630, 334711240, 264376500, 202438260, 155716430,
   121648030, 96798740, 78448670, 64670510, 54140820, 45954000, 34297600, 26610590, 21295730,
   17474840, 14637430, 10070410, 7441640, 4650030, 3243180, 1681920, 1042810], [752662880,
   723612970, 656345910, 508100850, 389033790, 300787730, 236268450, 188896320, 153681050,
   127085630, 106661350, 90717390, 67912830, 52803260, 42321590, 34767820, 29147970, 20082810,
   14853250, 9289700, 6481770, 3362410, 2084750], [617861480, 608116450, 580975290, 495798710,
   402758690, 322331470, 258672360, 209751250, 172319240, 143488200, 121032080, 103316220,
   77698820, 60547620, 48568220, 39895410, 33422950, 22952740, 16903860, 10479590, 7255320,
   3711770, 2282300], [0, 0, 0, 0, 0, 0, 0, 0, 0, 0, 0, 0, 0, 0, 0, 0, 0, 0, 0, 0, 0, 0, 0], [0, 0,
   0, 0, 0, 0, 0, 0, 0, 0, 0, 0, 0, 0, 0, 0, 0, 0, 0, 0, 0, 0, 0]]
/-- `reference/d4/params.py:1142-19554 refalpha`, row 15 -/
def refalpha15 : List (List Nat) := [[259470070, 254290340, 240216260, 198723550, 156749860,
   122514680, 96516650, 77129690, 62628530, 51656700, 43233980, 36669330, 27311570, 21144260,
   16888290, 13835900, 11574800, 7949870, 5875340, 3687610, 2592740, 1378720, 875080], [278753970,
   273122270, 258232190, 215634300, 172591270, 136872210, 109190600, 88162050, 72183460, 59933920,
   50426620, 42948080, 32172770, 24989620, 19991280, 16384630, 13701110, 9379270, 6897680, 4281650,
   2979330, 1553700, 974170], [557853670, 545314410, 512683850, 423425800, 337346300, 267484370,
   213755400, 172987970, 141966540, 118128320, 99578290, 84949500, 63802250, 49651180, 39775280,
   32633040, 27309600, 18718860, 13776140, 8557670, 5956760, 3107310, 1948320], [304586930,
   299832590, 286718190, 246351360, 202683100, 164561420, 133810200, 109693570, 90896850, 76189190,
   64582620, 55327160, 41782340, 32605350, 26145330, 21444890, 17926280, 12223890, 8934200,
   5466340, 3750780, 1903100, 1172040], [0, 0, 0, 0, 0, 0, 0, 0, 0, 0, 0, 0, 0, 0, 0, 0, 0, 0, 0,
   0, 0, 0, 0], [0, 0, 0, 0, 0, 0, 0, 0, 0, 0, 0, 0, 0, 0, 0, 0, 0, 0, 0, 0, 0, 0, 0], [0, 0, 0, 0,
   0, 0, 0, 0, 0, 0, 0, 0, 0, 0, 0, 0, 0, 0, 0, 0, 0, 0, 0]]
/-- `reference/d4/params.py:1142-19554 refalpha`, row 16 -/
def refalpha16 : List (List Nat) := [[196135110, 193396950, 185777950, 161740460, 134828010,
   110662650, 90764420, 74918500, 62419920, 52546810, 44695850, 38397190, 29119750, 22796060,
   18328050, 15069310, 12625940, 8658660, 6364800, 3940160, 2736140, 1429400, 902880], [222041430,
   218891090, 210218000, 183279640, 153337320, 126407210, 104119420, 86265960, 72105080, 60862970,
   51884110, 44652670, 33950220, 26615450, 21411100, 17603030, 14740840, 10081850, 7383390,
   4532570, 3121980, 1604390, 1002160], [245118610, 241774360, 232503900, 203440110, 170929990,
   141530500, 117050130, 97320240, 81583820, 69030290, 58962250, 50824590, 38729230, 30400830,
   24470470, 20119580, 16842890, 11498080, 8397730, 5122980, 3506710, 1779010, 1101270], [0, 0, 0,
   0, 0, 0, 0, 0, 0, 0, 0, 0, 0, 0, 0, 0, 0, 0, 0, 0, 0, 0, 0], [0, 0, 0, 0, 0, 0, 0, 0, 0, 0, 0,
   0, 0, 0, 0, 0, 0, 0, 0, 0, 0, 0, 0], [0, 0, 0, 0, 0, 0, 0, 0, 0, 0, 0, 0, 0, 0, 0, 0, 0, 0, 0,
   0, 0, 0, 0], [0, 0, 0, 0, 0, 0, 0, 0, 0, 0, 0, 0, 0, 0, 0, 0, 0, 0, 0, 0, 0, 0, 0]]
/-- `reference/d4/params.py:1142-19554 refalpha`, row 17 -/
def refalpha17 : List (List Nat) := [[146510610, 145166850, 141329320, 128305660, 112118050,
   96110460, 81817260, 69658720, 59541940, 51193500, 44310730, 38619390, 29935150, 23788950,
   19324470, 16000440, 13469040, 9286160, 6827690, 4202900, 2895830, 1489740, 934510], [172630540,
   170983080, 166294740, 150531340, 131168290, 112193720, 95356020, 81091300, 69254200, 59504380,
   51476860, 44845120, 34734290, 27582120, 22387270, 18518950, 15572580, 10703600, 7842990,
   4793850, 3280880, 1664540, 1033810], [0, 0, 0, 0, 0, 0, 0, 0, 0, 0, 0, 0, 0, 0, 0, 0, 0, 0, 0,
   0, 0, 0, 0], [0, 0, 0, 0, 0, 0, 0, 0, 0, 0, 0, 0, 0, 0, 0, 0, 0, 0, 0, 0, 0, 0, 0], [0, 0, 0, 0,
   0, 0, 0, 0, 0, 0, 0, 0, 0, 0, 0, 0, 0, 0, 0, 0, 0, 0, 0], [0, 0, 0, 0, 0, 0, 0, 0, 0, 0, 0, 0,
   0, 0, 0, 0, 0, 0, 0, 0, 0, 0, 0], [0, 0, 0, 0, 0, 0, 0, 0, 0, 0, 0, 0, 0, 0, 0, 0, 0, 0, 0, 0,
   0, 0, 0]]
/-- `reference/d4/params.py:1142-19554 refalpha`, row 18 -/
def refalpha18 : List (List Nat) := [[111080370, 110394140, 108402330, 101295640, 91733700,
   81487470, 71654820, 62757630, 54960060, 48240080, 42494460, 37594860, 29839560, 24128240,
   19852170, 16593100, 14065440, 9797740, 7235180, 4456840, 3060220, 1557480, 970350], [0, 0, 0, 0,
   0, 0, 0, 0, 0, 0, 0, 0, 0, 0, 0, 0, 0, 0, 0, 0, 0, 0, 0], [0, 0, 0, 0, 0, 0, 0, 0, 0, 0, 0, 0,
   0, 0, 0, 0, 0, 0, 0, 0, 0, 0, 0], [0, 0, 0, 0, 0, 0, 0, 0, 0, 0, 0, 0, 0, 0, 0, 0, 0, 0, 0, 0,
   0, 0, 0], [0, 0, 0, 0, 0, 0, 0, 0, 0, 0, 0, 0, 0, 0, 0, 0, 0, 0, 0, 0, 0, 0, 0], [0, 0, 0, 0, 0,
   0, 0, 0, 0, 0, 0, 0, 0, 0, 0, 0, 0, 0, 0, 0, 0, 0, 0], [0, 0, 0, 0, 0, 0, 0, 0, 0, 0, 0, 0, 0,
   0, 0, 0, 0, 0, 0, 0, 0, 0, 0]]
/-- `reference/d4/params.py:1142-19554 refalpha`, row 19 -/
def refalpha19 : List (List Nat) := [[3666173270, 1952407260, 838654450, 288051330, 159216120,
   109496410, 84035800, 68431600, 57666680, 49640380, 43344440, 38237620, 30427910, 24756550,
   20494570, 17214130, 14641050, 10222030, 7516860, 4544310, 3045490, 1458010, 862690], [534389170,
   478463210, 377399140, 234699070, 163225240, 123576000, 98698810, 81579680, 69001080, 59321790,
   51625350, 45358880, 35804740, 28930340, 23815560, 19913210, 16874660, 11703840, 8568800,
   5151140, 3439260, 1635940, 963540], [1128769963, 1115382559, 1078201226, 961458563, 830747922,
   711307898, 609421945, 524432551, 453906629, 395298970, 346393638, 305368708, 241382573,
   194781015, 160067586, 133663894, 113195232, 78610363, 57811058, 35249696, 23940353, 11879380,
   7245068], [0, 0, 0, 0, 0, 0, 0, 0, 0, 0, 0, 0, 0, 0, 0, 0, 0, 0, 0, 0, 0, 0, 0], [0, 0, 0, 0, 0,
   0, 0, 0, 0, 0, 0, 0, 0, 0, 0, 0, 0, 0, 0, 0, 0, 0, 0], [0, 0, 0, 0, 0, 0, 0, 0, 0, 0, 0, 0, 0,
   0, 0, 0, 0, 0, 0, 0, 0, 0, 0], [0, 0, 0, 0, 0, 0, 0, 0, 0, 0, 0, 0, 0, 0, 0, 0, 0, 0, 0, 0, 0,
   0, 0]]
/-- `reference/d4/params.py:1142-19554 refalpha`, row 20 -/
def refalpha20 : List (List Nat) := [[1673331200, 1387350820, 923660100, 410298690, 225025050,
   145451620, 104632190, 80723760, 65267080, 54500180, 46561940, 40450480, 31618950, 25524970,
   21073550, 17698140, 15069710, 10569390, 7807210, 4750180, 3195680, 1538130, 914010],
   [1581508830, 1116461600, 679213530, 339702430, 213038760, 150163380, 113779670, 90482850,
   74431400, 62742820, 53861210, 46885960, 36641970, 29506000, 24285760, 20334750, 17267590,
   12044810, 8862100, 5363960, 3596090, 1720510, 1017830], [478971840, 458022250, 407933190,
   296764790, 215460190, 162269040, 126953380, 102550730, 84973390, 71832110, 61691650, 53658830,
   41801140, 33536760, 27508620, 22964010, 19450020, 13500690, 9899710, 5965960, 3988370, 1899030,
   1119470], [928563023, 911707612, 867243129, 742666422, 620928688, 521273713, 443017181,
   381421847, 332177260, 292098267, 258942119, 231129142, 187302605, 154634027, 129627169,
   110083621, 94545882, 67335695, 50260366, 30995061, 21015110, 10184280, 6045719], [0, 0, 0, 0, 0,
   0, 0, 0, 0, 0, 0, 0, 0, 0, 0, 0, 0, 0, 0, 0, 0, 0, 0], [0, 0, 0, 0, 0, 0, 0, 0, 0, 0, 0, 0, 0,
   0, 0, 0, 0, 0, 0, 0, 0, 0, 0], [0, 0, 0, 0, 0, 0, 0, 0, 0, 0, 0, 0, 0, 0, 0, 0, 0, 0, 0, 0, 0,
   0, 0]]
/-- `reference/d4/params.py:1142-19554 refalpha`, row 21 -/
def refalpha21 : List (List Nat) := [[1256799050, 1083144390, 772929700, 371320260, 207670580,
   134119080, 95811350, 73353090, 58931080, 48989950, 41745440, 36229180, 28357880, 22984530,
   19074130, 16106400, 13787470, 9784770, 7296280, 4499330, 3052790, 1484840, 886520], [433830910,
   450959100, 395276970, 289987430, 213879050, 162717510, 127943430, 103540150, 85813500, 72517530,
   62258690, 54147740, 42221260, 33947970, 27929060, 23393880, 19883760, 13919190, 10282690,
   6267560, 4221330, 2026710, 1197200], [457861990, 443266490, 407084650, 317823730, 242343690,
   187383620, 148308240, 120175160, 99446720, 83787230, 71672090, 62095210, 48060710, 38394390,
   31416970, 26197890, 22184260, 15421450, 11337000, 6865730, 4605190, 2197990, 1294090],
   [257885399, 255284328, 248018055, 224847965, 198432083, 174046421, 153140812, 135610819,
   120932360, 108561134, 98039074, 89004927, 74345994, 63020196, 54061413, 46844025, 40943751,
   30185883, 23095038, 14697241, 10145692, 5013176, 2990179], [0, 0, 0, 0, 0, 0, 0, 0, 0, 0, 0, 0,
   0, 0, 0, 0, 0, 0, 0, 0, 0, 0, 0], [0, 0, 0, 0, 0, 0, 0, 0, 0, 0, 0, 0, 0, 0, 0, 0, 0, 0, 0, 0,
   0, 0, 0], [0, 0, 0, 0, 0, 0, 0, 0, 0, 0, 0, 0, 0, 0, 0, 0, 0, 0, 0, 0, 0, 0, 0]]
/-- `reference/d4/params.py:1142-19554 refalpha`, row 22 -/
def refalpha22 : List (List Nat) := [[1147243640, 997786920, 733046090, 375872700, 220065650,
   146330060, 106399730, 82278720, 66441090, 55356020, 47202080, 40964710, 32058500, 26004600,
   21623770, 18313070, 15731530, 11271400, 8480460, 5303920, 3633330, 1787040, 1068890],
   [460919720, 424892580, 376213730, 280117340, 208457830, 159626110, 126095600, 102373540,
   85034920, 71973670, 61869270, 53870300, 42107080, 33956060, 28031890, 23567820, 20108410,
   14205320, 10576160, 6522060, 4427770, 2149140, 1275310], [487114030, 472968810, 436774280,
   344392690, 265310300, 207154850, 165179260, 134481710, 111565010, 94084180, 80473770, 69676210,
   53829550, 42933920, 35097360, 29257120, 24779210, 17256070, 12717960, 7740440, 5212220, 2500910,
   1474550], [318693190, 315954595, 308154120, 281936583, 249990546, 219123454, 192042984,
   169162029, 150030479, 134005228, 120488331, 108986824, 90558940, 76529726, 65554549, 56780283,
   49642843, 36680250, 28144887, 18007388, 12482416, 6204756, 3709690], [0, 0, 0, 0, 0, 0, 0, 0, 0,
   0, 0, 0, 0, 0, 0, 0, 0, 0, 0, 0, 0, 0, 0], [0, 0, 0, 0, 0, 0, 0, 0, 0, 0, 0, 0, 0, 0, 0, 0, 0,
   0, 0, 0, 0, 0, 0], [0, 0, 0, 0, 0, 0, 0, 0, 0, 0, 0, 0, 0, 0, 0, 0, 0, 0, 0, 0, 0, 0, 0]]
/-- `reference/d4/params.py:1142-19554 refalpha`, row 23 -/
def refalpha23 : List (List Nat) := [[1009910610, 886597800, 666115730, 355163660, 212160720,
   142442310, 104067670, 80678270, 65248700, 54425580, 46458490, 40364450, 31669610, 25767360,
   21500770, 18277610, 15763140, 11406790, 8660900, 5494430, 3799770, 1891620, 1136620],
   [447007430, 420873530, 371472140, 274044260, 203770970, 156299000, 123710770, 100613500,
   83699050, 70937900, 61054940, 53225590, 41705140, 33719800, 27915250, 23540000, 20147100,
   14344300, 10757290, 6710700, 4591900, 2251960, 1341810], [438589710, 419185700, 379612250,
   294769420, 226653000, 177162500, 141578990, 115615470, 96256600, 81492470, 69989060, 60850100,
   47397660, 38101490, 31377770, 26337640, 22450370, 15855880, 11821140, 7316980, 4982510, 2427270,
   1441100], [394919722, 390027923, 376740133, 336693555, 293313719, 254515734, 222023666,
   195294838, 173268203, 154949224, 139540832, 126434247, 105397592, 89322131, 76697405, 66569547,
   58306559, 43239152, 33270116, 21370028, 14850445, 7404650, 4431346], [0, 0, 0, 0, 0, 0, 0, 0, 0,
   0, 0, 0, 0, 0, 0, 0, 0, 0, 0, 0, 0, 0, 0], [0, 0, 0, 0, 0, 0, 0, 0, 0, 0, 0, 0, 0, 0, 0, 0, 0,
   0, 0, 0, 0, 0, 0], [0, 0, 0, 0, 0, 0, 0, 0, 0, 0, 0, 0, 0, 0, 0, 0, 0, 0, 0, 0, 0, 0, 0]]
/-- `reference/d4/params.py:1142-19554 refalpha`, row 24 -/
def refalpha24 : List (List Nat) := [[814204420, 703861320, 510334860, 266035920, 164401450,
   115586160, 87956620, 70404390, 58344750, 49584520, 42948990, 37754900, 30150310, 24847490,
   20937350, 17938190, 15570520, 11409650, 8747790, 5634010, 3939510, 1991850, 1204340],
   [453318020, 424171170, 370714340, 269188730, 198754030, 152233940, 120588400, 98211890,
   81820250, 69441660, 59847000, 52241990, 41047330, 33284220, 27636460, 23373710, 20062470,
   14381260, 10851790, 6841550, 4719940, 2343080, 1403490], [564761320, 554404440, 527176090,
   451454930, 376466880, 312740070, 260862050, 219197000, 185802620, 158937900, 137180050,
   119412500, 92607000, 73778240, 60116860, 49917560, 42112130, 29083100, 21307140, 12874000,
   8631570, 4110260, 2406390], [1196067900, 1173611800, 1114540000, 952456700, 797390500,
   669517800, 567007000, 484921200, 418757900, 364928900, 320685600, 283948300, 227080700,
   185713200, 154707700, 130875400, 112163200, 79816700, 59708100, 37056100, 25262500, 12328500,
   7325600], [0, 0, 0, 0, 0, 0, 0, 0, 0, 0, 0, 0, 0, 0, 0, 0, 0, 0, 0, 0, 0, 0, 0], [0, 0, 0, 0, 0,
   0, 0, 0, 0, 0, 0, 0, 0, 0, 0, 0, 0, 0, 0, 0, 0, 0, 0], [0, 0, 0, 0, 0, 0, 0, 0, 0, 0, 0, 0, 0,
   0, 0, 0, 0, 0, 0, 0, 0, 0, 0]]
/-- `reference/d4/params.py:1142-19554 refalpha`, row 25 -/
def refalpha25 : List (List Nat) := [[821201120, 730648270, 565578050, 318457630, 195848590,
   133420540, 98197330, 76416120, 61931620, 51733980, 44221950, 38482630, 30320160, 24803430,
   20824750, 17818650, 15468520, 11371080, 8757490, 5688430, 4003450, 2041230, 1236650],
   [375942320, 365102540, 337065530, 263778710, 200194940, 154093840, 121689910, 98609100,
   81746400, 69089940, 59348110, 51678620, 40486360, 32798880, 27243850, 23069400, 19834830,
   14290960, 10840060, 6895570, 4788650, 2397600, 1439400], [488093290, 480980790, 461748290,
   404031130, 341760690, 286218290, 239924040, 202296980, 171934700, 147402990, 127472650,
   111157910, 86475930, 69086080, 56437710, 46974660, 39718750, 27571320, 20290510, 12349290,
   8324270, 3994510, 2345940], [0, 0, 0, 0, 0, 0, 0, 0, 0, 0, 0, 0, 0, 0, 0, 0, 0, 0, 0, 0, 0, 0,
   0], [0, 0, 0, 0, 0, 0, 0, 0, 0, 0, 0, 0, 0, 0, 0, 0, 0, 0, 0, 0, 0, 0, 0], [0, 0, 0, 0, 0, 0, 0,
   0, 0, 0, 0, 0, 0, 0, 0, 0, 0, 0, 0, 0, 0, 0, 0], [0, 0, 0, 0, 0, 0, 0, 0, 0, 0, 0, 0, 0, 0, 0,
   0, 0, 0, 0, 0, 0, 0, 0]]
/-- `reference/d4/params.py:1142-19554 refalpha`, row 26 -/
def refalpha26 : List (List Nat) := [[651578920, 574961000, 433419800, 238760970, 151156130,
   107673250, 82713540, 66686050, 55550430, 47375840, 41131870, 36217190, 28999580, 23973090,
   20280480, 17456620, 15229730, 11305990, 8773050, 5763700, 4092270, 2118590, 1294110],
   [345401790, 335667420, 311228640, 247676090, 190811590, 148373870, 117962700, 96020150,
   79844480, 67625510, 58177240, 50715270, 39797330, 32288080, 26862250, 22786720, 19629540,
   14214720, 10834860, 6950870, 4860810, 2464070, 1489560], [459056800, 452093150, 433396340,
   377811330, 318440890, 266022340, 222699010, 187694260, 159553430, 136865850, 118454300,
   103389430, 80596090, 64524730, 52822830, 44057560, 37328380, 26038570, 19248540, 11805840,
   8007680, 3884140, 2295320], [0, 0, 0, 0, 0, 0, 0, 0, 0, 0, 0, 0, 0, 0, 0, 0, 0, 0, 0, 0, 0, 0,
   0], [0, 0, 0, 0, 0, 0, 0, 0, 0, 0, 0, 0, 0, 0, 0, 0, 0, 0, 0, 0, 0, 0, 0], [0, 0, 0, 0, 0, 0, 0,
   0, 0, 0, 0, 0, 0, 0, 0, 0, 0, 0, 0, 0, 0, 0, 0], [0, 0, 0, 0, 0, 0, 0, 0, 0, 0, 0, 0, 0, 0, 0,
   0, 0, 0, 0, 0, 0, 0, 0]]
/-- `reference/d4/params.py:1142-19554 refalpha`, row 27 -/
def refalpha27 : List (List Nat) := [[607910330, 562385650, 463237860, 283000530, 180784830,
   125506200, 93329520, 73060380, 59416390, 49729450, 42552790, 37050500, 29212400, 23925770,
   20131210, 17278630, 15057010, 11191290, 8715490, 5771900, 4126650, 2164470, 1333190],
   [336766540, 322795850, 298110510, 236860370, 183057380, 142980140, 114150610, 93244580,
   77757940, 66008390, 56888800, 49663640, 39055760, 31737960, 26443420, 22465040, 19383190,
   14096790, 10792130, 6978430, 4912380, 2521090, 1535920], [330681610, 318814040, 293779300,
   236057900, 186463550, 149145580, 121627890, 101071300, 85395170, 73190970, 63509310, 55699740,
   44005400, 35786790, 29775460, 25232770, 21705940, 15662690, 11907560, 7619390, 5325880, 2706440,
   1640920], [447198600, 439726200, 419679160, 361202890, 300864670, 249191710, 207437800,
   174226860, 147811930, 126668970, 109594050, 95668070, 74655900, 59866860, 49103160, 41038230,
   34842290, 24429010, 18145610, 11222760, 7664210, 3762730, 2239990], [0, 0, 0, 0, 0, 0, 0, 0, 0,
   0, 0, 0, 0, 0, 0, 0, 0, 0, 0, 0, 0, 0, 0], [0, 0, 0, 0, 0, 0, 0, 0, 0, 0, 0, 0, 0, 0, 0, 0, 0,
   0, 0, 0, 0, 0, 0], [0, 0, 0, 0, 0, 0, 0, 0, 0, 0, 0, 0, 0, 0, 0, 0, 0, 0, 0, 0, 0, 0, 0]]
/-- `reference/d4/params.py:1142-19554 refalpha`, row 28 -/
def refalpha28 : List (List Nat) := [[651471670, 597497700, 484286590, 285849020, 178269450,
   121955640, 89866060, 69942690, 56675310, 47335770, 40463770, 35223700, 27801490, 22820840,
   19256220, 16580700, 14498280, 10871500, 8537840, 5733100, 4140840, 2208130, 1373770],
   [332010460, 319092910, 293670970, 231912300, 178686070, 139453180, 111368280, 91041990,
   75992180, 64570670, 55699260, 48664170, 38320980, 31174810, 26000250, 22111480, 19099840,
   13937010, 10709720, 6975870, 4941560, 2566390, 1576070], [438557940, 429928330, 407502500,
   344926310, 283244810, 232253070, 192045670, 160592920, 135864050, 116233040, 100473580,
   87676580, 68450210, 54965520, 45167510, 37830110, 32192030, 22703070, 16957880, 10589930,
   7288230, 3627090, 2177520], [469971430, 457683980, 426546550, 348257600, 280599290, 228623880,
   188881430, 158119240, 133988200, 114815020, 99393620, 86844580, 67937410, 54634420, 44945350,
   37676420, 32083130, 22653470, 16933670, 10583620, 7286770, 3627700, 2178100], [0, 0, 0, 0, 0, 0,
   0, 0, 0, 0, 0, 0, 0, 0, 0, 0, 0, 0, 0, 0, 0, 0, 0], [0, 0, 0, 0, 0, 0, 0, 0, 0, 0, 0, 0, 0, 0,
   0, 0, 0, 0, 0, 0, 0, 0, 0], [0, 0, 0, 0, 0, 0, 0, 0, 0, 0, 0, 0, 0, 0, 0, 0, 0, 0, 0, 0, 0, 0,
   0]]
/-- `reference/d4/params.py:1142-19554 refalpha`, row 29 -/
def refalpha29 : List (List Nat) := [[517659850, 464291690, 360204980, 205952700, 132155350,
   94590740, 72960120, 59145750, 49593020, 42583130, 37208220, 32950100, 26629290, 22171860,
   18871890, 16338740, 14337810, 10804860, 8509580, 5739100, 4162210, 2239360, 1401690],
   [322640590, 307643190, 273346460, 199931860, 146605450, 111745880, 88578670, 72504740, 60856020,
   52091410, 45290430, 39879440, 31856560, 26238350, 22117070, 18983580, 16531670, 12266060,
   9549290, 6340400, 4552650, 2415160, 1500870], [0, 0, 0, 0, 0, 0, 0, 0, 0, 0, 0, 0, 0, 0, 0, 0,
   0, 0, 0, 0, 0, 0, 0], [0, 0, 0, 0, 0, 0, 0, 0, 0, 0, 0, 0, 0, 0, 0, 0, 0, 0, 0, 0, 0, 0, 0], [0,
   0, 0, 0, 0, 0, 0, 0, 0, 0, 0, 0, 0, 0, 0, 0, 0, 0, 0, 0, 0, 0, 0], [0, 0, 0, 0, 0, 0, 0, 0, 0,
   0, 0, 0, 0, 0, 0, 0, 0, 0, 0, 0, 0, 0, 0], [0, 0, 0, 0, 0, 0, 0, 0, 0, 0, 0, 0, 0, 0, 0, 0, 0,
   0, 0, 0, 0, 0, 0]]
/-- `reference/d4/params.py:1142-19554 refalpha`, row 30 -/
def refalpha30 : List (List Nat) := [[448764280, 424015380, 365011020, 240580460, 159961690,
   113275720, 85125980, 67050110, 54750510, 45962800, 39426060, 34399690, 27216070, 22355020,
   18860970, 16235520, 14194560, 10657210, 8398960, 5698780, 4161790, 2271770, 1438000],
   [292304490, 286434220, 270389880, 222870810, 175546960, 138059590, 110322270, 89976380,
   74858160, 63399040, 54528720, 47523760, 37286630, 30264940, 25210460, 21430610, 18515770,
   13547510, 10459910, 6893360, 4939420, 2624940, 1638640], [0, 0, 0, 0, 0, 0, 0, 0, 0, 0, 0, 0, 0,
   0, 0, 0, 0, 0, 0, 0, 0, 0, 0], [0, 0, 0, 0, 0, 0, 0, 0, 0, 0, 0, 0, 0, 0, 0, 0, 0, 0, 0, 0, 0,
   0, 0], [0, 0, 0, 0, 0, 0, 0, 0, 0, 0, 0, 0, 0, 0, 0, 0, 0, 0, 0, 0, 0, 0, 0], [0, 0, 0, 0, 0, 0,
   0, 0, 0, 0, 0, 0, 0, 0, 0, 0, 0, 0, 0, 0, 0, 0, 0], [0, 0, 0, 0, 0, 0, 0, 0, 0, 0, 0, 0, 0, 0,
   0, 0, 0, 0, 0, 0, 0, 0, 0]]
/-- `reference/d4/params.py:1142-19554 refalpha`, row 31 -/
def refalpha31 : List (List Nat) := [[562798430, 519167870, 432310870, 281416200, 188462820,
   132994650, 98600450, 76193980, 60894620, 50007640, 41981820, 35884760, 27347440, 21738840,
   17818110, 14944090, 12758120, 9086190, 6839730, 4300690, 2959040, 1458990, 867970], [533046110,
   499067250, 426926500, 292253470, 204243950, 148882280, 112916180, 88592270, 71500550, 59073300,
   49763880, 42607350, 32471250, 25751450, 21036730, 17579590, 14954520, 10567390, 7907280,
   4933050, 3378040, 1654770, 980990], [406953470, 386598060, 349271010, 270292080, 205104160,
   157311360, 123171900, 98626390, 80655210, 67210170, 56931530, 48912630, 37391050, 29659310,
   24200560, 20186870, 17137410, 12049770, 8979620, 5570650, 3801550, 1853670, 1096290], [0, 0, 0,
   0, 0, 0, 0, 0, 0, 0, 0, 0, 0, 0, 0, 0, 0, 0, 0, 0, 0, 0, 0], [0, 0, 0, 0, 0, 0, 0, 0, 0, 0, 0,
   0, 0, 0, 0, 0, 0, 0, 0, 0, 0, 0, 0], [0, 0, 0, 0, 0, 0, 0, 0, 0, 0, 0, 0, 0, 0, 0, 0, 0, 0, 0,
   0, 0, 0, 0], [0, 0, 0, 0, 0, 0, 0, 0, 0, 0, 0, 0, 0, 0, 0, 0, 0, 0, 0, 0, 0, 0, 0]]
/-- `reference/d4/params.py:1142-19554 refalpha`, row 32 -/
def refalpha32 : List (List Nat) := [[416184280, 399833160, 359872960, 266103970, 192286830,
   141743150, 107638470, 84179500, 67587960, 55514820, 46493180, 39588270, 29887560, 23535080,
   19131390, 15937360, 13534810, 9566170, 7184900, 4529630, 3132500, 1561230, 935260], [404520440,
   390264160, 355809840, 273666530, 205342330, 155791490, 120769830, 95821540, 77708270, 64264770,
   54066710, 46170600, 34943900, 27511970, 22328710, 18558220, 15719620, 11037790, 8243160,
   5154070, 3545620, 1754620, 1047250], [404418220, 392545360, 362478860, 286222220, 219792320,
   169925560, 133626540, 107138950, 87539710, 72776830, 61448790, 52599430, 39900180, 31421830,
   25480020, 21146930, 17881720, 12499950, 9298180, 5780120, 3961690, 1950880, 1161420],
   [376716300, 368525860, 346926590, 286826580, 228485090, 181179570, 144936950, 117568160,
   96831810, 80946770, 68606380, 58877070, 44784020, 35295510, 28613170, 23726930, 20040290,
   13963730, 10356150, 6409590, 4381220, 2150380, 1278320], [349443880, 344589550, 330932300,
   286849650, 236815050, 192193090, 156074480, 127869910, 106029230, 89045950, 75710690, 65114240,
   49643950, 39154690, 31737400, 26301480, 22195640, 15427250, 11415220, 7041370, 4803530, 2352710,
   1397600], [0, 0, 0, 0, 0, 0, 0, 0, 0, 0, 0, 0, 0, 0, 0, 0, 0, 0, 0, 0, 0, 0, 0], [0, 0, 0, 0, 0,
   0, 0, 0, 0, 0, 0, 0, 0, 0, 0, 0, 0, 0, 0, 0, 0, 0, 0]]
/-- `reference/d4/params.py:1142-19554 refalpha`, row 33 -/
def refalpha33 : List (List Nat) := [[309622720, 302682480, 284117290, 231419060, 180459760,
   140238200, 110354630, 88374630, 72065030, 59774600, 50352070, 43004040, 32496190, 25521200,
   20662400, 17139300, 14497910, 10172000, 7612360, 4798100, 3329600, 1673800, 1007870],
   [329857230, 322738720, 303903080, 250725470, 198545550, 156403290, 124395230, 100416420,
   82363030, 68602630, 57958010, 49597520, 37548970, 29491190, 23851990, 19752150, 16674560,
   11635310, 8662610, 5416150, 3738430, 1866530, 1120540], [345403260, 338506380, 320374310,
   268393630, 215730010, 171996430, 138049410, 112190870, 92473150, 77296440, 65466390, 56118890,
   42560500, 33436390, 27026150, 22355180, 18844910, 13096800, 9712870, 6035540, 4148920, 2060850,
   1234480], [355626970, 349738250, 333553240, 284265670, 231867600, 186947170, 151290090,
   123689250, 102393320, 85855950, 72877370, 62567940, 47529590, 37354930, 30182630, 24945970,
   21006490, 14553950, 10760650, 6653780, 4558740, 2254990, 1348450], [0, 0, 0, 0, 0, 0, 0, 0, 0,
   0, 0, 0, 0, 0, 0, 0, 0, 0, 0, 0, 0, 0, 0], [0, 0, 0, 0, 0, 0, 0, 0, 0, 0, 0, 0, 0, 0, 0, 0, 0,
   0, 0, 0, 0, 0, 0], [0, 0, 0, 0, 0, 0, 0, 0, 0, 0, 0, 0, 0, 0, 0, 0, 0, 0, 0, 0, 0, 0, 0]]
/-- `reference/d4/params.py:1142-19554 refalpha`, row 34 -/
def refalpha34 : List (List Nat) := [[257234860, 252967560, 241266960, 205754680, 168021780,
   135652820, 109952140, 90046390, 74667080, 62701390, 53290860, 45800740, 34849480, 27424650,
   22186000, 18360660, 15483750, 10775180, 8008720, 5007840, 3466260, 1746160, 1055700],
   [285144970, 280475240, 267740720, 229293920, 188329680, 152899050, 124503800, 102324530,
   85069500, 71570530, 60907950, 52391750, 39892260, 31385090, 25367660, 20966900, 17654690,
   12233860, 9054680, 5621910, 3871530, 1936670, 1167080], [309890680, 305032140, 291715810,
   251156940, 207515920, 169397500, 138556780, 114267060, 95242290, 80279190, 68410310, 58898910,
   44887500, 35316780, 28531070, 23561140, 19817540, 13689360, 10099510, 6236450, 4277790, 2128400,
   1279540], [0, 0, 0, 0, 0, 0, 0, 0, 0, 0, 0, 0, 0, 0, 0, 0, 0, 0, 0, 0, 0, 0, 0], [0, 0, 0, 0, 0,
   0, 0, 0, 0, 0, 0, 0, 0, 0, 0, 0, 0, 0, 0, 0, 0, 0, 0], [0, 0, 0, 0, 0, 0, 0, 0, 0, 0, 0, 0, 0,
   0, 0, 0, 0, 0, 0, 0, 0, 0, 0], [0, 0, 0, 0, 0, 0, 0, 0, 0, 0, 0, 0, 0, 0, 0, 0, 0, 0, 0, 0, 0,
   0, 0]]
/-- `reference/d4/params.py:1142-19554 refalpha`, row 35 -/
def refalpha35 : List (List Nat) := [[208160780, 205760200, 198987130, 176813900, 150736970,
   126318500, 105528970, 88524810, 74812900, 63774160, 54848940, 47581530, 36676360, 29082370,
   23624100, 19587510, 16526030, 11479460, 8506710, 5297310, 3663790, 1854320, 1127450],
   [237818040, 235043600, 227232600, 201781530, 171975750, 144112140, 120390110, 100975330,
   85309690, 72693050, 62490260, 54182350, 41716820, 33037540, 26800190, 22188460, 18691920,
   12933190, 9547540, 5906060, 4063970, 2041110, 1236350], [0, 0, 0, 0, 0, 0, 0, 0, 0, 0, 0, 0, 0,
   0, 0, 0, 0, 0, 0, 0, 0, 0, 0], [0, 0, 0, 0, 0, 0, 0, 0, 0, 0, 0, 0, 0, 0, 0, 0, 0, 0, 0, 0, 0,
   0, 0], [0, 0, 0, 0, 0, 0, 0, 0, 0, 0, 0, 0, 0, 0, 0, 0, 0, 0, 0, 0, 0, 0, 0], [0, 0, 0, 0, 0, 0,
   0, 0, 0, 0, 0, 0, 0, 0, 0, 0, 0, 0, 0, 0, 0, 0, 0], [0, 0, 0, 0, 0, 0, 0, 0, 0, 0, 0, 0, 0, 0,
   0, 0, 0, 0, 0, 0, 0, 0, 0]]
/-- `reference/d4/params.py:1142-19554 refalpha`, row 36 -/
def refalpha36 : List (List Nat) := [[168771250, 167404080, 163473440, 149868570, 132465280,
   114802080, 98697990, 84773240, 73035050, 63243740, 55096050, 48302660, 37825130, 30313660,
   24797800, 20653280, 17472760, 12164410, 9007200, 5591630, 3861250, 1959080, 1197080], [0, 0, 0,
   0, 0, 0, 0, 0, 0, 0, 0, 0, 0, 0, 0, 0, 0, 0, 0, 0, 0, 0, 0], [0, 0, 0, 0, 0, 0, 0, 0, 0, 0, 0,
   0, 0, 0, 0, 0, 0, 0, 0, 0, 0, 0, 0], [0, 0, 0, 0, 0, 0, 0, 0, 0, 0, 0, 0, 0, 0, 0, 0, 0, 0, 0,
   0, 0, 0, 0], [0, 0, 0, 0, 0, 0, 0, 0, 0, 0, 0, 0, 0, 0, 0, 0, 0, 0, 0, 0, 0, 0, 0], [0, 0, 0, 0,
   0, 0, 0, 0, 0, 0, 0, 0, 0, 0, 0, 0, 0, 0, 0, 0, 0, 0, 0], [0, 0, 0, 0, 0, 0, 0, 0, 0, 0, 0, 0,
   0, 0, 0, 0, 0, 0, 0, 0, 0, 0, 0]]
/-- `reference/d4/params.py:1142-19554 refalpha`, row 37 -/
def refalpha37 : List (List Nat) := [[4101570650, 2143629420, 922189500, 330762760, 191702550,
   136453490, 106953320, 88115010, 74699530, 64487380, 56381240, 49766630, 39619960, 32244460,
   26697510, 22421050, 19059170, 13262900, 9698860, 5775830, 3804570, 1743570, 992380], [621046880,
   553737420, 435682870, 274983580, 195497690, 150663500, 121785660, 101413920, 86158260, 74268580,
   64740940, 56949060, 45031460, 36435490, 30024770, 25119750, 21288570, 14737190, 10743370,
   6377080, 4194260, 1919380, 1091900], [1266310029, 1251559058, 1210742788, 1083482901, 941247762,
   810337905, 697439741, 602269348, 522628997, 456040488, 400235464, 353278801, 279808202,
   226114560, 185992009, 155379934, 131579386, 91200087, 66812408, 40309298, 27053916, 13052810,
   7781749], [0, 0, 0, 0, 0, 0, 0, 0, 0, 0, 0, 0, 0, 0, 0, 0, 0, 0, 0, 0, 0, 0, 0], [0, 0, 0, 0, 0,
   0, 0, 0, 0, 0, 0, 0, 0, 0, 0, 0, 0, 0, 0, 0, 0, 0, 0], [0, 0, 0, 0, 0, 0, 0, 0, 0, 0, 0, 0, 0,
   0, 0, 0, 0, 0, 0, 0, 0, 0, 0], [0, 0, 0, 0, 0, 0, 0, 0, 0, 0, 0, 0, 0, 0, 0, 0, 0, 0, 0, 0, 0,
   0, 0]]
/-- `reference/d4/params.py:1142-19554 refalpha`, row 38 -/
def refalpha38 : List (List Nat) := [[2070959830, 1674062640, 1075395190, 468864590, 262027860,
   174151700, 128603380, 101317340, 83169810, 70156000, 60305450, 52554110, 41095420, 33041900,
   27115560, 22617260, 19123040, 13185610, 9589950, 5679990, 3733060, 1708320, 972390],
   [2037569620, 1362520380, 793342830, 390709150, 248495540, 178598820, 137760240, 111115300,
   92347870, 78382880, 67567000, 58938450, 46058940, 36968050, 30281860, 25217330, 21292640,
   14647060, 10638290, 6292740, 4133770, 1891240, 1076560], [567366690, 538312150, 472695200,
   339461020, 248182410, 189521460, 150374310, 122916810, 102772390, 87433090, 75399850, 65735100,
   51255840, 41035260, 33535750, 27871740, 23494990, 16113550, 11681150, 6895060, 4524650, 2067690,
   1176430], [1164505849, 1141968844, 1082963555, 921203844, 767209726, 643033634, 545977463,
   469458079, 408022639, 357806868, 316136150, 281128216, 225997820, 185077567, 153957648,
   129813495, 110757782, 77757352, 57345816, 34676638, 23132969, 10842547, 6262415], [0, 0, 0, 0,
   0, 0, 0, 0, 0, 0, 0, 0, 0, 0, 0, 0, 0, 0, 0, 0, 0, 0, 0], [0, 0, 0, 0, 0, 0, 0, 0, 0, 0, 0, 0,
   0, 0, 0, 0, 0, 0, 0, 0, 0, 0, 0], [0, 0, 0, 0, 0, 0, 0, 0, 0, 0, 0, 0, 0, 0, 0, 0, 0, 0, 0, 0,
   0, 0, 0]]
/-- `reference/d4/params.py:1142-19554 refalpha`, row 39 -/
def refalpha39 : List (List Nat) := [[1565816530, 1334096570, 946810390, 471887390, 278621270,
   188348770, 139092620, 108900460, 88730220, 74352670, 63585500, 55211390, 43014730, 34566600,
   28399260, 23734080, 20112610, 13945770, 10190510, 6075350, 4008910, 1843540, 1051420],
   [1268052320, 887747170, 641464690, 402998810, 282499780, 210643660, 164186290, 132334170,
   109441490, 92339520, 79151340, 68713270, 53330370, 42636390, 34855460, 29002550, 24485960,
   16861640, 12266060, 7275190, 4787640, 2194880, 1250190], [519455750, 504162010, 465373240,
   366790590, 281986330, 219785510, 175295770, 143039920, 119077650, 100810740, 86547010, 75170970,
   58310100, 46555680, 38004240, 31579800, 26630160, 18296590, 13289880, 7868860, 5173750, 2369610,
   1349160], [0, 0, 0, 0, 0, 0, 0, 0, 0, 0, 0, 0, 0, 0, 0, 0, 0, 0, 0, 0, 0, 0, 0], [0, 0, 0, 0, 0,
   0, 0, 0, 0, 0, 0, 0, 0, 0, 0, 0, 0, 0, 0, 0, 0, 0, 0], [0, 0, 0, 0, 0, 0, 0, 0, 0, 0, 0, 0, 0,
   0, 0, 0, 0, 0, 0, 0, 0, 0, 0], [0, 0, 0, 0, 0, 0, 0, 0, 0, 0, 0, 0, 0, 0, 0, 0, 0, 0, 0, 0, 0,
   0, 0]]
/-- `reference/d4/params.py:1142-19554 refalpha`, row 40 -/
def refalpha40 : List (List Nat) := [[1291649250, 1129115260, 842744150, 452123570, 276899320,
   190856380, 142390790, 112024000, 91447760, 76666660, 65563690, 56928180, 44382110, 35726300,
   29422010, 24654780, 20949780, 14616900, 10734540, 6444360, 4270850, 1974770, 1128890],
   [595329360, 590731440, 493004260, 356901590, 265930640, 204777520, 162621680, 132552040,
   110380980, 93543390, 80423850, 69973630, 54495930, 43698600, 35825450, 29890610, 25300090,
   17518420, 12798730, 7635970, 5043350, 2322730, 1325630], [537033680, 523694770, 488771380,
   394788990, 309424830, 244286920, 196266710, 160687640, 133881100, 113281120, 97137520, 84253900,
   65198670, 51977820, 42403830, 35235900, 29725540, 20460840, 14892320, 8847240, 5830200, 2678100,
   1526730], [336465243, 334038388, 327056564, 302880677, 272060499, 240984692, 212765610,
   188296599, 167447048, 149743210, 134663529, 121742122, 100904600, 84969686, 72491379, 62526961,
   54441107, 39836870, 30306974, 19121250, 13109813, 6388831, 3766424], [0, 0, 0, 0, 0, 0, 0, 0, 0,
   0, 0, 0, 0, 0, 0, 0, 0, 0, 0, 0, 0, 0, 0], [0, 0, 0, 0, 0, 0, 0, 0, 0, 0, 0, 0, 0, 0, 0, 0, 0,
   0, 0, 0, 0, 0, 0], [0, 0, 0, 0, 0, 0, 0, 0, 0, 0, 0, 0, 0, 0, 0, 0, 0, 0, 0, 0, 0, 0, 0]]
/-- `reference/d4/params.py:1142-19554 refalpha`, row 41 -/
def refalpha41 : List (List Nat) := [[1125868220, 989946210, 755219100, 425430350, 268101620,
   187904950, 141713590, 112319370, 92165940, 77556700, 66508620, 57874800, 45279270, 36564020,
   30206270, 25390860, 21640690, 15202440, 11226240, 6790940, 4521310, 2102320, 1204560],
   [559986780, 608749560, 506953400, 356643390, 264531740, 204359360, 162988900, 133351670,
   111377280, 94604950, 81484630, 71004180, 55443520, 44569430, 36632070, 30641820, 26001160,
   18107380, 13291220, 7982160, 5293550, 2450550, 1401740], [513329100, 490284950, 446433950,
   353677840, 276830280, 219413960, 177220800, 145880150, 122159700, 103838810, 89410440, 77843510,
   60637690, 48619510, 39865780, 33277110, 28186730, 19562960, 14327150, 8581570, 5683180, 2626950,
   1501750], [392699458, 389559085, 380619736, 350545164, 313566941, 277212247, 244670081,
   216658391, 192870190, 172695766, 155513454, 140783331, 117000325, 98776054, 84472870, 73024041,
   63710983, 46822974, 35742534, 22657569, 15581961, 7625966, 4505494], [0, 0, 0, 0, 0, 0, 0, 0, 0,
   0, 0, 0, 0, 0, 0, 0, 0, 0, 0, 0, 0, 0, 0], [0, 0, 0, 0, 0, 0, 0, 0, 0, 0, 0, 0, 0, 0, 0, 0, 0,
   0, 0, 0, 0, 0, 0], [0, 0, 0, 0, 0, 0, 0, 0, 0, 0, 0, 0, 0, 0, 0, 0, 0, 0, 0, 0, 0, 0, 0]]
/-- `reference/d4/params.py:1142-19554 refalpha`, row 42 -/
def refalpha42 : List (List Nat) := [[801166370, 720033490, 563464510, 333622730, 222521730,
   163666450, 128045350, 104296810, 87352680, 74656260, 64789340, 56904860, 45115160, 36758650,
   30566210, 25826100, 22106410, 15662560, 11641470, 7106370, 4758290, 2228080, 1280230],
   [573696220, 536619600, 464519190, 337721100, 253796990, 198008640, 159255030, 131223040,
   110249000, 94107880, 81389620, 71166930, 55878340, 45113880, 37214650, 31229210, 26576930,
   18625700, 13742440, 8315500, 5541640, 2581730, 1480840], [672624950, 660303950, 627575620,
   535269770, 443751560, 366776440, 304829790, 255527440, 216261800, 184804960, 159392930,
   138670690, 107428020, 85472490, 69523710, 57601520, 48468120, 33211190, 24114970, 14303190,
   9425060, 4333420, 2472210], [571122440, 545507140, 498607540, 405094150, 327396620, 266350470,
   219139730, 182593580, 154061580, 131523240, 113489830, 98875440, 76939570, 61540760, 50326460,
   41907210, 35424610, 24502640, 17914150, 10718980, 7099120, 3284040, 1878520], [0, 0, 0, 0, 0, 0,
   0, 0, 0, 0, 0, 0, 0, 0, 0, 0, 0, 0, 0, 0, 0, 0, 0], [0, 0, 0, 0, 0, 0, 0, 0, 0, 0, 0, 0, 0, 0,
   0, 0, 0, 0, 0, 0, 0, 0, 0], [0, 0, 0, 0, 0, 0, 0, 0, 0, 0, 0, 0, 0, 0, 0, 0, 0, 0, 0, 0, 0, 0,
   0]]
/-- `reference/d4/params.py:1142-19554 refalpha`, row 43 -/
def refalpha43 : List (List Nat) := [[929387160, 819452450, 633698580, 373296730, 243564850,
   174779390, 134110250, 107755340, 89429790, 75986600, 65712030, 57605070, 45631700, 37227110,
   31024520, 26281370, 22556760, 16085080, 12022890, 7402780, 4986150, 2353880, 1357590],
   [758730320, 659104100, 519040420, 347083320, 254784390, 197433960, 158501840, 130603640,
   109826550, 93875760, 81320480, 71229420, 56121410, 45457470, 37609510, 31646320, 26999290,
   19026050, 14102760, 8594030, 5755190, 2699220, 1552940], [585751980, 577047570, 553283600,
   481684600, 405340630, 338274610, 283028200, 238467240, 202669430, 173809560, 150378770,
   131192270, 102118960, 81570940, 66575030, 55321270, 46670770, 32152040, 23443700, 13987970,
   9253150, 4276690, 2445830], [0, 0, 0, 0, 0, 0, 0, 0, 0, 0, 0, 0, 0, 0, 0, 0, 0, 0, 0, 0, 0, 0,
   0], [0, 0, 0, 0, 0, 0, 0, 0, 0, 0, 0, 0, 0, 0, 0, 0, 0, 0, 0, 0, 0, 0, 0], [0, 0, 0, 0, 0, 0, 0,
   0, 0, 0, 0, 0, 0, 0, 0, 0, 0, 0, 0, 0, 0, 0, 0], [0, 0, 0, 0, 0, 0, 0, 0, 0, 0, 0, 0, 0, 0, 0,
   0, 0, 0, 0, 0, 0, 0, 0]]
/-- `reference/d4/params.py:1142-19554 refalpha`, row 44 -/
def refalpha44 : List (List Nat) := [[642873650, 582984130, 466241190, 289081460, 198860070,
   149414970, 118820490, 98067370, 83050910, 71669030, 62736860, 55536060, 44638560, 36792510,
   30894480, 26322260, 22694820, 16317090, 12266730, 7613680, 5156110, 2453210, 1420300],
   [457015170, 441640550, 400828620, 309952860, 238618350, 188259100, 152521470, 126439180,
   106826650, 91676420, 79697090, 70033880, 55501890, 45187320, 37556240, 31728410, 27165260,
   19281300, 14370560, 8825770, 5941370, 2807420, 1621180], [536449610, 529021650, 508530030,
   445291150, 376245730, 314884170, 264097500, 223040630, 190002040, 163321480, 141620830,
   123817320, 96763600, 77570110, 63512380, 52927530, 44766230, 31006590, 22704610, 13630470,
   9053930, 4209110, 2414160], [0, 0, 0, 0, 0, 0, 0, 0, 0, 0, 0, 0, 0, 0, 0, 0, 0, 0, 0, 0, 0, 0,
   0], [0, 0, 0, 0, 0, 0, 0, 0, 0, 0, 0, 0, 0, 0, 0, 0, 0, 0, 0, 0, 0, 0, 0], [0, 0, 0, 0, 0, 0, 0,
   0, 0, 0, 0, 0, 0, 0, 0, 0, 0, 0, 0, 0, 0, 0, 0], [0, 0, 0, 0, 0, 0, 0, 0, 0, 0, 0, 0, 0, 0, 0,
   0, 0, 0, 0, 0, 0, 0, 0]]
/-- `reference/d4/params.py:1142-19554 refalpha`, row 45 -/
def refalpha45 : List (List Nat) := [[681542450, 629960050, 520807400, 329144330, 221117060,
   161257920, 125115460, 101406800, 84788070, 72525150, 63108490, 55647590, 44563970, 36717400,
   30873140, 26361620, 22786150, 16486870, 12462650, 7799260, 5311430, 2547010, 1480120],
   [433417530, 414841810, 375198890, 290651560, 225178410, 178848750, 145797210, 121532300,
   103179030, 88923860, 77596700, 68419520, 54542350, 44628030, 37251260, 31588890, 27134840,
   19388590, 14524300, 8985520, 6078940, 2892870, 1676290], [377442490, 366313080, 340210470,
   279047180, 226219420, 185364410, 154279090, 130366770, 111653460, 96752930, 84697300, 74802140,
   59656450, 48738020, 40587720, 34331020, 29417130, 20906290, 15597110, 9597480, 6472660, 3069220,
   1776240], [507362600, 494436100, 462123700, 377336800, 300265600, 241196600, 197259100,
   164228700, 138898500, 119075300, 103272700, 90468100, 71181400, 57535600, 47506500, 39906900,
   34003100, 23920200, 17726100, 10819100, 7262700, 3424400, 1977000], [0, 0, 0, 0, 0, 0, 0, 0, 0,
   0, 0, 0, 0, 0, 0, 0, 0, 0, 0, 0, 0, 0, 0], [0, 0, 0, 0, 0, 0, 0, 0, 0, 0, 0, 0, 0, 0, 0, 0, 0,
   0, 0, 0, 0, 0, 0], [0, 0, 0, 0, 0, 0, 0, 0, 0, 0, 0, 0, 0, 0, 0, 0, 0, 0, 0, 0, 0, 0, 0]]
/-- `reference/d4/params.py:1142-19554 refalpha`, row 46 -/
def refalpha46 : List (List Nat) := [[608864630, 568478940, 478540600, 309841900, 210472500,
   154485530, 120425860, 97984690, 82204320, 70529890, 61545310, 54412960, 43791150, 36247120,
   30609020, 26240310, 22764150, 16598380, 12622490, 7967230, 5457380, 2639640, 1541040],
   [402110290, 385072500, 348932240, 272138020, 212371640, 169805470, 139260910, 116707350,
   99551980, 86156180, 75460330, 66757400, 53527110, 44016410, 36902360, 31415360, 27079930,
   19489220, 14681030, 9154940, 6227080, 2987130, 1738250], [529449710, 518101820, 488650090,
   409527250, 335198470, 275254650, 228486080, 192026620, 163345560, 140509400, 122094700,
   107060500, 84272930, 68085780, 56176560, 47154850, 40151810, 28211020, 20891520, 12745700,
   8557330, 4038840, 2333960], [0, 0, 0, 0, 0, 0, 0, 0, 0, 0, 0, 0, 0, 0, 0, 0, 0, 0, 0, 0, 0, 0,
   0], [0, 0, 0, 0, 0, 0, 0, 0, 0, 0, 0, 0, 0, 0, 0, 0, 0, 0, 0, 0, 0, 0, 0], [0, 0, 0, 0, 0, 0, 0,
   0, 0, 0, 0, 0, 0, 0, 0, 0, 0, 0, 0, 0, 0, 0, 0], [0, 0, 0, 0, 0, 0, 0, 0, 0, 0, 0, 0, 0, 0, 0,
   0, 0, 0, 0, 0, 0, 0, 0]]
/-- `reference/d4/params.py:1142-19554 refalpha`, row 47 -/
def refalpha47 : List (List Nat) := [[541989880, 490489660, 389829400, 239821320, 166050290,
   126373760, 101995360, 85437370, 73366070, 64116550, 56772120, 50784690, 41592690, 34860530,
   29720170, 25673730, 22414010, 16540770, 12685970, 8095530, 5581500, 2721620, 1594640],
   [366000980, 351208740, 316461790, 240228290, 183425350, 144988310, 118463360, 99378870,
   85081750, 74002440, 65179040, 57995690, 47030760, 39082530, 33079420, 28402610, 24670520,
   18034180, 13743830, 8703890, 5975480, 2899250, 1695250], [0, 0, 0, 0, 0, 0, 0, 0, 0, 0, 0, 0, 0,
   0, 0, 0, 0, 0, 0, 0, 0, 0, 0], [0, 0, 0, 0, 0, 0, 0, 0, 0, 0, 0, 0, 0, 0, 0, 0, 0, 0, 0, 0, 0,
   0, 0], [0, 0, 0, 0, 0, 0, 0, 0, 0, 0, 0, 0, 0, 0, 0, 0, 0, 0, 0, 0, 0, 0, 0], [0, 0, 0, 0, 0, 0,
   0, 0, 0, 0, 0, 0, 0, 0, 0, 0, 0, 0, 0, 0, 0, 0, 0], [0, 0, 0, 0, 0, 0, 0, 0, 0, 0, 0, 0, 0, 0,
   0, 0, 0, 0, 0, 0, 0, 0, 0]]
/-- `reference/d4/params.py:1142-19554 refalpha`, row 48 -/
def refalpha48 : List (List Nat) := [[512430300, 483502990, 415746300, 277890000, 191321820,
   141382230, 110784560, 90587800, 76378310, 65859030, 57753370, 51307120, 41675160, 34798590,
   29630260, 25600920, 22373290, 16578750, 12772960, 8215180, 5698100, 2806600, 1654590],
   [359140330, 351566180, 331068480, 271969530, 215145310, 171191360, 138992970, 115355770,
   97648350, 84054680, 73368940, 64788070, 51930790, 42809850, 36036050, 30826690, 26710330,
   19469920, 14831570, 9406720, 6472420, 3156970, 1853400], [0, 0, 0, 0, 0, 0, 0, 0, 0, 0, 0, 0, 0,
   0, 0, 0, 0, 0, 0, 0, 0, 0, 0], [0, 0, 0, 0, 0, 0, 0, 0, 0, 0, 0, 0, 0, 0, 0, 0, 0, 0, 0, 0, 0,
   0, 0], [0, 0, 0, 0, 0, 0, 0, 0, 0, 0, 0, 0, 0, 0, 0, 0, 0, 0, 0, 0, 0, 0, 0], [0, 0, 0, 0, 0, 0,
   0, 0, 0, 0, 0, 0, 0, 0, 0, 0, 0, 0, 0, 0, 0, 0, 0], [0, 0, 0, 0, 0, 0, 0, 0, 0, 0, 0, 0, 0, 0,
   0, 0, 0, 0, 0, 0, 0, 0, 0]]
/-- `reference/d4/params.py:1142-19554 refalpha`, row 49 -/
def refalpha49 : List (List Nat) := [[729150960, 660753600, 533578280, 335644110, 224687340,
   161472430, 123105260, 98245790, 81173940, 68860560, 59610840, 52425400, 41995990, 34778910,
   29472540, 25398030, 22168390, 16430710, 12690370, 8214960, 5729700, 2844110, 1681820],
   [685448320, 633499550, 529158640, 351620400, 244638730, 180151280, 139204010, 111780650,
   92513440, 78406570, 67710770, 59359020, 47209280, 38821540, 32690480, 28016450, 24338840,
   17877840, 13722790, 8814810, 6120400, 3021170, 1782190], [507622140, 480385490, 430567370,
   328278830, 247634540, 190651230, 150969960, 122851460, 102375520, 87031490, 75220080, 65906520,
   52252970, 42790840, 35880180, 30628180, 26512680, 19334490, 14763250, 9418740, 6513060, 3198580,
   1882630], [411871070, 404130170, 382892500, 319210850, 254481130, 202225040, 163010840,
   133954500, 112196820, 95597380, 82670060, 72399920, 57255130, 46728770, 39045910, 33221260,
   28671790, 20782430, 15798240, 10020180, 6904450, 3375630, 1982910], [0, 0, 0, 0, 0, 0, 0, 0, 0,
   0, 0, 0, 0, 0, 0, 0, 0, 0, 0, 0, 0, 0, 0], [0, 0, 0, 0, 0, 0, 0, 0, 0, 0, 0, 0, 0, 0, 0, 0, 0,
   0, 0, 0, 0, 0, 0], [0, 0, 0, 0, 0, 0, 0, 0, 0, 0, 0, 0, 0, 0, 0, 0, 0, 0, 0, 0, 0, 0, 0]]
/-- `reference/d4/params.py:1142-19554 refalpha`, row 50 -/
def refalpha50 : List (List Nat) := [[573040270, 544476260, 477957070, 336841460, 237376670,
   173960520, 133024310, 105620400, 86525610, 72708170, 62366020, 54393040, 42988630, 35266460,
   29701000, 25497820, 22208960, 16446800, 12728700, 8288590, 5812410, 2912600, 1732200],
   [537298320, 514329790, 460716700, 342024090, 251302790, 189316540, 147246270, 118066270,
   97217990, 81863100, 70228060, 61183050, 48155710, 39303330, 32929680, 28132790, 24396930,
   17907330, 13769680, 8891430, 6203820, 3088870, 1831710], [533912050, 514589370, 467536920,
   357231120, 268682930, 205832790, 161845180, 130610500, 107905050, 90973330, 78031170, 67910320,
   53263460, 43288220, 36113910, 30730140, 26553170, 19347190, 14797110, 9488200, 6592330, 3264620,
   1931150], [481721000, 469654470, 438406630, 354940690, 277965480, 218303470, 174239690,
   141866160, 117798410, 99575870, 85500830, 74414740, 58269560, 47227970, 39280720, 33323920,
   28712630, 20794750, 15831290, 10088640, 6982730, 3440760, 2030650], [443809730, 436657010,
   416751380, 354583760, 287575380, 230706960, 186492860, 152988620, 127583260, 108093490,
   92904440, 80867420, 63242650, 51145440, 42431700, 35905930, 30863030, 22237000, 16862000,
   10687380, 7372220, 3616620, 2130010], [0, 0, 0, 0, 0, 0, 0, 0, 0, 0, 0, 0, 0, 0, 0, 0, 0, 0, 0,
   0, 0, 0, 0], [0, 0, 0, 0, 0, 0, 0, 0, 0, 0, 0, 0, 0, 0, 0, 0, 0, 0, 0, 0, 0, 0, 0]]
/-- `reference/d4/params.py:1142-19554 refalpha`, row 51 -/
def refalpha51 : List (List Nat) := [[448358450, 435130560, 400926450, 311774780, 234511520,
   178471750, 139239600, 111566290, 91627500, 76898730, 65744680, 57098380, 44725460, 36404470,
   30472370, 26044190, 22616350, 16693460, 12920700, 8442200, 5942970, 2999110, 1791200],
   [459916410, 447450290, 415208600, 329820310, 253160810, 195590470, 154150740, 124297230,
   102444980, 86111660, 73634730, 63902070, 49895020, 40440290, 33698710, 28676280, 24801170,
   18150710, 13958700, 9043070, 6333220, 3175040, 1890550], [466496880, 455197710, 425927060,
   346039430, 270775160, 212059700, 168636310, 136742900, 113067400, 95188430, 81427680, 70635060,
   55024820, 44452150, 36909720, 31298080, 26978790, 19604550, 14994800, 9643160, 6723070, 3350840,
   1989840], [467552750, 458323020, 433346180, 360394380, 287272660, 227845200, 182688140,
   148903330, 123496050, 104129670, 89123290, 77296420, 60113260, 48438310, 40103740, 33908020,
   29147740, 21053690, 16027900, 10241710, 7112070, 3526470, 2089120], [0, 0, 0, 0, 0, 0, 0, 0, 0,
   0, 0, 0, 0, 0, 0, 0, 0, 0, 0, 0, 0, 0, 0], [0, 0, 0, 0, 0, 0, 0, 0, 0, 0, 0, 0, 0, 0, 0, 0, 0,
   0, 0, 0, 0, 0, 0], [0, 0, 0, 0, 0, 0, 0, 0, 0, 0, 0, 0, 0, 0, 0, 0, 0, 0, 0, 0, 0, 0, 0]]
/-- `reference/d4/params.py:1142-19554 refalpha`, row 52 -/
def refalpha52 : List (List Nat) := [[387558670, 378891050, 355765770, 290541470, 227985480,
   178842260, 142354170, 115477160, 95486370, 80375580, 68745420, 59631130, 46477480, 37603970,
   31299390, 26624490, 23034360, 16910060, 13067460, 8554460, 6045040, 3075880, 1846460],
   [412800660, 404036870, 380648030, 314147320, 249165410, 197095440, 157789570, 128463230,
   106436490, 89662810, 76680330, 66463830, 51661270, 41647840, 34530650, 29259730, 25221220,
   18367870, 14105310, 9154730, 6434690, 3251430, 1945560], [433767540, 425220370, 402233370,
   335679210, 269051580, 214529440, 172695530, 141098870, 117148730, 98784450, 84497140, 73210330,
   56796140, 45661840, 37742540, 31881760, 27398680, 19821020, 15140480, 9753820, 6823680, 3426700,
   2044490], [0, 0, 0, 0, 0, 0, 0, 0, 0, 0, 0, 0, 0, 0, 0, 0, 0, 0, 0, 0, 0, 0, 0], [0, 0, 0, 0, 0,
   0, 0, 0, 0, 0, 0, 0, 0, 0, 0, 0, 0, 0, 0, 0, 0, 0, 0], [0, 0, 0, 0, 0, 0, 0, 0, 0, 0, 0, 0, 0,
   0, 0, 0, 0, 0, 0, 0, 0, 0, 0], [0, 0, 0, 0, 0, 0, 0, 0, 0, 0, 0, 0, 0, 0, 0, 0, 0, 0, 0, 0, 0,
   0, 0]]
/-- `reference/d4/params.py:1142-19554 refalpha`, row 53 -/
def refalpha53 : List (List Nat) := [[325364480, 320135530, 305701660, 261371840, 214024280,
   173505230, 141439250, 116664030, 97557500, 82712240, 71046010, 61759850, 48153900, 38867100,
   32241390, 27330620, 23571070, 17206990, 13260350, 8674990, 6140980, 3141040, 1892860],
   [355939760, 350391840, 335058920, 287725970, 236664920, 192510560, 157268020, 129864250,
   108631350, 92076450, 79032670, 68629800, 53359890, 42925500, 35482480, 29972560, 25762480,
   18666410, 14298640, 9275130, 6530570, 3316710, 1992050], [0, 0, 0, 0, 0, 0, 0, 0, 0, 0, 0, 0, 0,
   0, 0, 0, 0, 0, 0, 0, 0, 0, 0], [0, 0, 0, 0, 0, 0, 0, 0, 0, 0, 0, 0, 0, 0, 0, 0, 0, 0, 0, 0, 0,
   0, 0], [0, 0, 0, 0, 0, 0, 0, 0, 0, 0, 0, 0, 0, 0, 0, 0, 0, 0, 0, 0, 0, 0, 0], [0, 0, 0, 0, 0, 0,
   0, 0, 0, 0, 0, 0, 0, 0, 0, 0, 0, 0, 0, 0, 0, 0, 0], [0, 0, 0, 0, 0, 0, 0, 0, 0, 0, 0, 0, 0, 0,
   0, 0, 0, 0, 0, 0, 0, 0, 0]]
/-- `reference/d4/params.py:1142-19554 refalpha`, row 54 -/
def refalpha54 : List (List Nat) := [[273277050, 270110760, 261157860, 231734500, 197140260,
   164952160, 137782840, 115745650, 98106950, 83998660, 72654260, 63458240, 49718440, 40169210,
   33286250, 28159860, 24230090, 17595470, 13513270, 8819580, 6246870, 3206970, 1938380], [0, 0, 0,
   0, 0, 0, 0, 0, 0, 0, 0, 0, 0, 0, 0, 0, 0, 0, 0, 0, 0, 0, 0], [0, 0, 0, 0, 0, 0, 0, 0, 0, 0, 0,
   0, 0, 0, 0, 0, 0, 0, 0, 0, 0, 0, 0], [0, 0, 0, 0, 0, 0, 0, 0, 0, 0, 0, 0, 0, 0, 0, 0, 0, 0, 0,
   0, 0, 0, 0], [0, 0, 0, 0, 0, 0, 0, 0, 0, 0, 0, 0, 0, 0, 0, 0, 0, 0, 0, 0, 0, 0, 0], [0, 0, 0, 0,
   0, 0, 0, 0, 0, 0, 0, 0, 0, 0, 0, 0, 0, 0, 0, 0, 0, 0, 0], [0, 0, 0, 0, 0, 0, 0, 0, 0, 0, 0, 0,
   0, 0, 0, 0, 0, 0, 0, 0, 0, 0, 0]]
/-- `reference/d4/params.py:1142-19554 refalpha`, row 55 -/
def refalpha55 : List (List Nat) := [[5370897540, 2512031120, 1046716850, 401908390, 249381150,
   183967650, 145779860, 119651660, 100264350, 85234170, 73270290, 63574360, 48990430, 38742590,
   31301840, 25751510, 21515440, 14501300, 10384390, 6036570, 3927120, 1776630, 1006850],
   [657018290, 598918430, 493703130, 338726930, 252509890, 198576040, 161061580, 133278610,
   111931740, 95136360, 81692610, 70782580, 54392600, 42914390, 34609450, 28433200, 23731020,
   15968080, 11424900, 6636650, 4316520, 1952610, 1106580], [1590053270, 1571436212, 1519731787,
   1357037659, 1173153187, 1002482652, 854662885, 730126871, 626425221, 540415555, 469052446,
   409663710, 318279948, 252977404, 205185492, 169398730, 142032476, 96642916, 69942505, 41611863,
   27731001, 13285730, 7903369], [0, 0, 0, 0, 0, 0, 0, 0, 0, 0, 0, 0, 0, 0, 0, 0, 0, 0, 0, 0, 0, 0,
   0], [0, 0, 0, 0, 0, 0, 0, 0, 0, 0, 0, 0, 0, 0, 0, 0, 0, 0, 0, 0, 0, 0, 0], [0, 0, 0, 0, 0, 0, 0,
   0, 0, 0, 0, 0, 0, 0, 0, 0, 0, 0, 0, 0, 0, 0, 0], [0, 0, 0, 0, 0, 0, 0, 0, 0, 0, 0, 0, 0, 0, 0,
   0, 0, 0, 0, 0, 0, 0, 0]]
/-- `reference/d4/params.py:1142-19554 refalpha`, row 56 -/
def refalpha56 : List (List Nat) := [[2882408830, 2201240810, 1314902760, 552586600, 315893280,
   216257080, 163339130, 130455460, 107783530, 91050960, 78133370, 67850620, 52566000, 41863800,
   34065330, 28211540, 23711900, 16174560, 11682080, 6862840, 4490360, 2044320, 1161510],
   [3095716070, 1753545830, 946066250, 460830780, 300147260, 220684410, 172886740, 140639130,
   117253160, 99472460, 85510400, 74290820, 57511370, 45735640, 37161310, 30735940, 25806020,
   17570230, 12676610, 7440160, 4866820, 2215860, 1259200], [669605790, 630034800, 548221920,
   397272000, 296372990, 230260300, 184860590, 152106190, 127502140, 108439290, 93316440, 81096160,
   62753070, 49860280, 40475020, 33448150, 28062400, 19080120, 13753850, 8064740, 5272920, 2399460,
   1363100], [1555094396, 1522957198, 1439110133, 1212148688, 1000521440, 832245940, 701280996,
   607626607, 515155269, 447636011, 391938022, 345522205, 273444515, 221012480, 181884416,
   152025580, 128788334, 89266992, 65294153, 39103194, 25946296, 12081345, 6957280], [0, 0, 0, 0,
   0, 0, 0, 0, 0, 0, 0, 0, 0, 0, 0, 0, 0, 0, 0, 0, 0, 0, 0], [0, 0, 0, 0, 0, 0, 0, 0, 0, 0, 0, 0,
   0, 0, 0, 0, 0, 0, 0, 0, 0, 0, 0], [0, 0, 0, 0, 0, 0, 0, 0, 0, 0, 0, 0, 0, 0, 0, 0, 0, 0, 0, 0,
   0, 0, 0]]
/-- `reference/d4/params.py:1142-19554 refalpha`, row 57 -/
def refalpha57 : List (List Nat) := [[2158140220, 1768449270, 1183158760, 565506640, 337025040,
   232152200, 174335570, 138111350, 113289880, 95173300, 81343090, 70437020, 54382140, 43231050,
   35139470, 29079640, 24428210, 16648090, 12017740, 7056550, 4616280, 2101180, 1193250],
   [1741703670, 1098104790, 784184010, 483320410, 338987960, 254468050, 199742230, 161822840,
   134194490, 113279880, 96974550, 83967050, 64683870, 51269150, 41557730, 34309420, 28764740,
   19535170, 14072110, 8245040, 5388600, 2450480, 1391110], [666599540, 643784460, 587168170,
   451581050, 343061210, 266622110, 212769290, 173778510, 144673110, 122338560, 104793230,
   90738430, 69849920, 55308960, 44789930, 36947640, 30955470, 20997350, 15114130, 8848790,
   5781220, 2628230, 1491850], [0, 0, 0, 0, 0, 0, 0, 0, 0, 0, 0, 0, 0, 0, 0, 0, 0, 0, 0, 0, 0, 0,
   0], [0, 0, 0, 0, 0, 0, 0, 0, 0, 0, 0, 0, 0, 0, 0, 0, 0, 0, 0, 0, 0, 0, 0], [0, 0, 0, 0, 0, 0, 0,
   0, 0, 0, 0, 0, 0, 0, 0, 0, 0, 0, 0, 0, 0, 0, 0], [0, 0, 0, 0, 0, 0, 0, 0, 0, 0, 0, 0, 0, 0, 0,
   0, 0, 0, 0, 0, 0, 0, 0]]
/-- `reference/d4/params.py:1142-19554 refalpha`, row 58 -/
def refalpha58 : List (List Nat) := [[631803350, 608655150, 556077000, 429730420, 328160560,
   256410650, 205717660, 168914020, 141378050, 120210120, 103558470, 90204850, 70330480, 56466750,
   46410990, 38887730, 33113370, 23420650, 17576480, 11111050, 7737220, 3918750, 2365100], [0, 0,
   0, 0, 0, 0, 0, 0, 0, 0, 0, 0, 0, 0, 0, 0, 0, 0, 0, 0, 0, 0, 0], [0, 0, 0, 0, 0, 0, 0, 0, 0, 0,
   0, 0, 0, 0, 0, 0, 0, 0, 0, 0, 0, 0, 0], [0, 0, 0, 0, 0, 0, 0, 0, 0, 0, 0, 0, 0, 0, 0, 0, 0, 0,
   0, 0, 0, 0, 0], [0, 0, 0, 0, 0, 0, 0, 0, 0, 0, 0, 0, 0, 0, 0, 0, 0, 0, 0, 0, 0, 0, 0], [0, 0, 0,
   0, 0, 0, 0, 0, 0, 0, 0, 0, 0, 0, 0, 0, 0, 0, 0, 0, 0, 0, 0], [0, 0, 0, 0, 0, 0, 0, 0, 0, 0, 0,
   0, 0, 0, 0, 0, 0, 0, 0, 0, 0, 0, 0]]
/-- `reference/d4/params.py:1142-19554 refalpha`, row 59 -/
def refalpha59 : List (List Nat) := [[2536075830, 1853478080, 1173131200, 514986990, 295194860,
   201469030, 152121030, 121925180, 101406100, 86417550, 74910100, 65762820, 52119620, 42469660,
   35345800, 29924220, 25699090, 18461480, 13998220, 8963550, 6292150, 3225380, 1960510],
   [612373490, 589335430, 539743400, 419343430, 321281250, 251481370, 202000000, 166031610,
   139109010, 118406070, 102112030, 89035100, 69541880, 55908190, 45991840, 38553720, 32832050,
   23202580, 17385060, 10952390, 7607110, 3842190, 2318250], [0, 0, 0, 0, 0, 0, 0, 0, 0, 0, 0, 0,
   0, 0, 0, 0, 0, 0, 0, 0, 0, 0, 0], [0, 0, 0, 0, 0, 0, 0, 0, 0, 0, 0, 0, 0, 0, 0, 0, 0, 0, 0, 0,
   0, 0, 0], [0, 0, 0, 0, 0, 0, 0, 0, 0, 0, 0, 0, 0, 0, 0, 0, 0, 0, 0, 0, 0, 0, 0], [0, 0, 0, 0, 0,
   0, 0, 0, 0, 0, 0, 0, 0, 0, 0, 0, 0, 0, 0, 0, 0, 0, 0], [0, 0, 0, 0, 0, 0, 0, 0, 0, 0, 0, 0, 0,
   0, 0, 0, 0, 0, 0, 0, 0, 0, 0]]
/-- `reference/d4/params.py:1142-19554 refalpha`, row 60 -/
def refalpha60 : List (List Nat) := [[2245762180, 1792684400, 1145509860, 507711900, 290959830,
   198086410, 149251210, 119483050, 99338740, 84673600, 73439400, 64519280, 51215350, 41790220,
   34814770, 29491840, 25333290, 18187150, 13768350, 8783290, 6146620, 3138300, 1905480],
   [598908920, 578663720, 530214580, 412308960, 316026170, 247396280, 198738380, 163389450,
   136950980, 116632880, 100646540, 87815920, 68677690, 55271730, 45502380, 38160260, 32502340,
   22958240, 17180490, 10790660, 7475530, 3762800, 2268030], [0, 0, 0, 0, 0, 0, 0, 0, 0, 0, 0, 0,
   0, 0, 0, 0, 0, 0, 0, 0, 0, 0, 0], [0, 0, 0, 0, 0, 0, 0, 0, 0, 0, 0, 0, 0, 0, 0, 0, 0, 0, 0, 0,
   0, 0, 0], [0, 0, 0, 0, 0, 0, 0, 0, 0, 0, 0, 0, 0, 0, 0, 0, 0, 0, 0, 0, 0, 0, 0], [0, 0, 0, 0, 0,
   0, 0, 0, 0, 0, 0, 0, 0, 0, 0, 0, 0, 0, 0, 0, 0, 0, 0], [0, 0, 0, 0, 0, 0, 0, 0, 0, 0, 0, 0, 0,
   0, 0, 0, 0, 0, 0, 0, 0, 0, 0]]
/-- `reference/d4/params.py:1142-19554 refalpha`, row 61 -/
def refalpha61 : List (List Nat) := [[2165540280, 1740685600, 1120657200, 499521540, 285964740,
   194194800, 146027420, 116781260, 97072940, 82773840, 71844350, 63175570, 50245550, 41068450,
   34257530, 29044660, 24960780, 17917290, 13546830, 8610840, 6005800, 3050960, 1848870],
   [579857080, 560520210, 514036550, 401715870, 309043600, 242360810, 194864830, 160303390,
   134446280, 114577250, 98945360, 86397290, 67667310, 54526280, 44930820, 37704490, 32125050,
   22688980, 16962120, 10622980, 7339400, 3678790, 2213700], [0, 0, 0, 0, 0, 0, 0, 0, 0, 0, 0, 0,
   0, 0, 0, 0, 0, 0, 0, 0, 0, 0, 0], [0, 0, 0, 0, 0, 0, 0, 0, 0, 0, 0, 0, 0, 0, 0, 0, 0, 0, 0, 0,
   0, 0, 0], [0, 0, 0, 0, 0, 0, 0, 0, 0, 0, 0, 0, 0, 0, 0, 0, 0, 0, 0, 0, 0, 0, 0], [0, 0, 0, 0, 0,
   0, 0, 0, 0, 0, 0, 0, 0, 0, 0, 0, 0, 0, 0, 0, 0, 0, 0], [0, 0, 0, 0, 0, 0, 0, 0, 0, 0, 0, 0, 0,
   0, 0, 0, 0, 0, 0, 0, 0, 0, 0]]
/-- `reference/d4/params.py:1142-19554 refalpha`, row 62 -/
def refalpha62 : List (List Nat) := [[2094821630, 1693264270, 1097496270, 491677750, 281221600,
   190508730, 142954700, 114178440, 94862320, 80895200, 70245330, 61810260, 49234940, 40299890,
   33654240, 28555240, 24550980, 17622060, 13308620, 8430750, 5860700, 2961160, 1790130],
   [604975550, 568914260, 517310830, 401100700, 307211290, 240196790, 192720050, 158320160,
   132674100, 113021990, 97592770, 85225050, 66783810, 53848030, 44395640, 37268880, 31759310,
   22423610, 16746190, 10457120, 7204260, 3593990, 2157950], [0, 0, 0, 0, 0, 0, 0, 0, 0, 0, 0, 0,
   0, 0, 0, 0, 0, 0, 0, 0, 0, 0, 0], [0, 0, 0, 0, 0, 0, 0, 0, 0, 0, 0, 0, 0, 0, 0, 0, 0, 0, 0, 0,
   0, 0, 0], [0, 0, 0, 0, 0, 0, 0, 0, 0, 0, 0, 0, 0, 0, 0, 0, 0, 0, 0, 0, 0, 0, 0], [0, 0, 0, 0, 0,
   0, 0, 0, 0, 0, 0, 0, 0, 0, 0, 0, 0, 0, 0, 0, 0, 0, 0], [0, 0, 0, 0, 0, 0, 0, 0, 0, 0, 0, 0, 0,
   0, 0, 0, 0, 0, 0, 0, 0, 0, 0]]
/-- `reference/d4/params.py:1142-19554 refalpha`, row 63 -/
def refalpha63 : List (List Nat) := [[2032111900, 1650774090, 1076941350, 484835280, 277173710,
   187379040, 140329820, 111932480, 92933470, 79237680, 68819260, 60580060, 48307140, 39582910,
   33084100, 28088210, 24157350, 17336990, 13079430, 8259450, 5723790, 2877150, 1735300],
   [583846820, 555074830, 489596600, 355239180, 262422590, 202406920, 162113610, 133691670,
   112734740, 96705860, 84080470, 73900200, 58559040, 47635490, 39543760, 33370760, 28551160,
   20281870, 15187450, 9491330, 6530540, 3246600, 1946040], [0, 0, 0, 0, 0, 0, 0, 0, 0, 0, 0, 0, 0,
   0, 0, 0, 0, 0, 0, 0, 0, 0, 0], [0, 0, 0, 0, 0, 0, 0, 0, 0, 0, 0, 0, 0, 0, 0, 0, 0, 0, 0, 0, 0,
   0, 0], [0, 0, 0, 0, 0, 0, 0, 0, 0, 0, 0, 0, 0, 0, 0, 0, 0, 0, 0, 0, 0, 0, 0], [0, 0, 0, 0, 0, 0,
   0, 0, 0, 0, 0, 0, 0, 0, 0, 0, 0, 0, 0, 0, 0, 0, 0], [0, 0, 0, 0, 0, 0, 0, 0, 0, 0, 0, 0, 0, 0,
   0, 0, 0, 0, 0, 0, 0, 0, 0]]
/-- `reference/d4/params.py:1142-19554 refalpha`, row 64 -/
def refalpha64 : List (List Nat) := [[1418420640, 1168571040, 824531150, 428638860, 264230410,
   185963810, 142465310, 115139220, 96332520, 82500980, 71830900, 63311290, 50514610, 41367300,
   34541820, 29295050, 25169890, 18023770, 13572570, 8545860, 5909780, 2962180, 1784510],
   [599521870, 576299620, 523452910, 404588930, 308901980, 240499010, 192156040, 157302290,
   131464310, 111770130, 96378050, 84085080, 65823240, 53050770, 43727770, 36698530, 31261280,
   22035920, 16416690, 10191840, 6982840, 3451090, 2062760], [0, 0, 0, 0, 0, 0, 0, 0, 0, 0, 0, 0,
   0, 0, 0, 0, 0, 0, 0, 0, 0, 0, 0], [0, 0, 0, 0, 0, 0, 0, 0, 0, 0, 0, 0, 0, 0, 0, 0, 0, 0, 0, 0,
   0, 0, 0], [0, 0, 0, 0, 0, 0, 0, 0, 0, 0, 0, 0, 0, 0, 0, 0, 0, 0, 0, 0, 0, 0, 0], [0, 0, 0, 0, 0,
   0, 0, 0, 0, 0, 0, 0, 0, 0, 0, 0, 0, 0, 0, 0, 0, 0, 0], [0, 0, 0, 0, 0, 0, 0, 0, 0, 0, 0, 0, 0,
   0, 0, 0, 0, 0, 0, 0, 0, 0, 0]]
/-- `reference/d4/params.py:1142-19554 refalpha`, row 65 -/
def refalpha65 : List (List Nat) := [[2293015960, 1487572060, 838992590, 377525280, 230411680,
   164030610, 127361960, 104183080, 88072510, 76095540, 66757310, 59225500, 47760310, 39431820,
   33133000, 28236490, 24350780, 17540070, 13245690, 8351270, 5770300, 2882710, 1732830],
   [557777620, 539540020, 494627260, 385259830, 295462910, 231049190, 185294200, 152134150,
   127449150, 108576310, 93793010, 81965330, 64356150, 52004630, 42962800, 36126080, 30823350,
   21790430, 16261760, 10110080, 6927930, 3420770, 2042870], [0, 0, 0, 0, 0, 0, 0, 0, 0, 0, 0, 0,
   0, 0, 0, 0, 0, 0, 0, 0, 0, 0, 0], [0, 0, 0, 0, 0, 0, 0, 0, 0, 0, 0, 0, 0, 0, 0, 0, 0, 0, 0, 0,
   0, 0, 0], [0, 0, 0, 0, 0, 0, 0, 0, 0, 0, 0, 0, 0, 0, 0, 0, 0, 0, 0, 0, 0, 0, 0], [0, 0, 0, 0, 0,
   0, 0, 0, 0, 0, 0, 0, 0, 0, 0, 0, 0, 0, 0, 0, 0, 0, 0], [0, 0, 0, 0, 0, 0, 0, 0, 0, 0, 0, 0, 0,
   0, 0, 0, 0, 0, 0, 0, 0, 0, 0]]
/-- `reference/d4/params.py:1142-19554 refalpha`, row 66 -/
def refalpha66 : List (List Nat) := [[2324656730, 1351836000, 801286950, 377486970, 232434510,
   165330840, 127969630, 104341740, 87966470, 75842480, 66428660, 58863450, 47393580, 39091410,
   32824410, 27957150, 24096230, 17330220, 13064720, 8207680, 5653110, 2809900, 1685370],
   [604090430, 559872550, 503819660, 385219880, 293573150, 228882210, 183247830, 150311820,
   125861420, 107203330, 92606660, 80937380, 63571910, 51389330, 42464670, 35710020, 30465710,
   21519680, 16036830, 9935670, 6786190, 3332680, 1985350], [0, 0, 0, 0, 0, 0, 0, 0, 0, 0, 0, 0, 0,
   0, 0, 0, 0, 0, 0, 0, 0, 0, 0], [0, 0, 0, 0, 0, 0, 0, 0, 0, 0, 0, 0, 0, 0, 0, 0, 0, 0, 0, 0, 0,
   0, 0], [0, 0, 0, 0, 0, 0, 0, 0, 0, 0, 0, 0, 0, 0, 0, 0, 0, 0, 0, 0, 0, 0, 0], [0, 0, 0, 0, 0, 0,
   0, 0, 0, 0, 0, 0, 0, 0, 0, 0, 0, 0, 0, 0, 0, 0, 0], [0, 0, 0, 0, 0, 0, 0, 0, 0, 0, 0, 0, 0, 0,
   0, 0, 0, 0, 0, 0, 0, 0, 0]]
/-- `reference/d4/params.py:1142-19554 refalpha`, row 67 -/
def refalpha67 : List (List Nat) := [[1743579710, 1453475730, 983386140, 456653390, 261535730,
   175697070, 130686310, 103734350, 85909150, 73206360, 63633450, 56111750, 44954000, 37014620,
   31066380, 26458480, 22803750, 16387150, 12329370, 7701030, 5271880, 2591200, 1545480],
   [524790850, 509455980, 470541390, 371641820, 286862320, 224764090, 180300540, 148000680,
   123955370, 105586820, 91212810, 79722170, 62625620, 50632080, 41843110, 35187310, 30016100,
   21184470, 15764470, 9730470, 6620460, 3227820, 1915480], [0, 0, 0, 0, 0, 0, 0, 0, 0, 0, 0, 0, 0,
   0, 0, 0, 0, 0, 0, 0, 0, 0, 0], [0, 0, 0, 0, 0, 0, 0, 0, 0, 0, 0, 0, 0, 0, 0, 0, 0, 0, 0, 0, 0,
   0, 0], [0, 0, 0, 0, 0, 0, 0, 0, 0, 0, 0, 0, 0, 0, 0, 0, 0, 0, 0, 0, 0, 0, 0], [0, 0, 0, 0, 0, 0,
   0, 0, 0, 0, 0, 0, 0, 0, 0, 0, 0, 0, 0, 0, 0, 0, 0], [0, 0, 0, 0, 0, 0, 0, 0, 0, 0, 0, 0, 0, 0,
   0, 0, 0, 0, 0, 0, 0, 0, 0]]
/-- `reference/d4/params.py:1142-19554 refalpha`, row 68 -/
def refalpha68 : List (List Nat) := [[1695086700, 1418311300, 964854630, 449898390, 257372660,
   172457070, 127960440, 101383860, 83867110, 71428030, 62082610, 54756830, 43910800, 36198210,
   30414510, 25926580, 22360160, 16079710, 12093860, 7535860, 5142640, 2510880, 1491740],
   [509243700, 494869020, 458178160, 363744420, 281606380, 220904510, 177252050, 145487700,
   121834110, 103771780, 89646510, 78362150, 61584380, 49818960, 41194840, 34659310, 29576820,
   20882320, 15534830, 9571210, 6496440, 3150810, 1863840], [0, 0, 0, 0, 0, 0, 0, 0, 0, 0, 0, 0, 0,
   0, 0, 0, 0, 0, 0, 0, 0, 0, 0], [0, 0, 0, 0, 0, 0, 0, 0, 0, 0, 0, 0, 0, 0, 0, 0, 0, 0, 0, 0, 0,
   0, 0], [0, 0, 0, 0, 0, 0, 0, 0, 0, 0, 0, 0, 0, 0, 0, 0, 0, 0, 0, 0, 0, 0, 0], [0, 0, 0, 0, 0, 0,
   0, 0, 0, 0, 0, 0, 0, 0, 0, 0, 0, 0, 0, 0, 0, 0, 0], [0, 0, 0, 0, 0, 0, 0, 0, 0, 0, 0, 0, 0, 0,
   0, 0, 0, 0, 0, 0, 0, 0, 0]]
/-- `reference/d4/params.py:1142-19554 refalpha`, row 69 -/
def refalpha69 : List (List Nat) := [[1648744790, 1385034170, 947797640, 444385580, 254312120,
   170158970, 126028120, 99697610, 82378580, 70109450, 60912830, 53717500, 43084370, 35531670,
   29867270, 25468500, 21969270, 15796200, 11870370, 7375970, 5018220, 2436440, 1443670],
   [509258390, 493627740, 456624910, 361857370, 279704110, 219122080, 175625150, 144018520,
   120514680, 102590760, 88591280, 77419770, 60830330, 49209200, 40693970, 34240270, 29219510,
   20623180, 15329870, 9422880, 6379740, 3079830, 1817680], [0, 0, 0, 0, 0, 0, 0, 0, 0, 0, 0, 0, 0,
   0, 0, 0, 0, 0, 0, 0, 0, 0, 0], [0, 0, 0, 0, 0, 0, 0, 0, 0, 0, 0, 0, 0, 0, 0, 0, 0, 0, 0, 0, 0,
   0, 0], [0, 0, 0, 0, 0, 0, 0, 0, 0, 0, 0, 0, 0, 0, 0, 0, 0, 0, 0, 0, 0, 0, 0], [0, 0, 0, 0, 0, 0,
   0, 0, 0, 0, 0, 0, 0, 0, 0, 0, 0, 0, 0, 0, 0, 0, 0], [0, 0, 0, 0, 0, 0, 0, 0, 0, 0, 0, 0, 0, 0,
   0, 0, 0, 0, 0, 0, 0, 0, 0]]
/-- `reference/d4/params.py:1142-19554 refalpha`, row 70 -/
def refalpha70 : List (List Nat) := [[1637379070, 1374016000, 938094750, 437828040, 249508110,
   166301360, 122781120, 96905770, 79955170, 67996180, 59064770, 52097330, 41828480, 34544290,
   29077830, 24825740, 21436170, 15435770, 11603320, 7200560, 4887560, 2360610, 1394570],
   [541811670, 523584220, 481909980, 377829980, 288680310, 223694590, 177640250, 144601420,
   120316690, 101983910, 87787560, 76539450, 59967880, 48445850, 40040030, 33683890, 28743980,
   20286710, 15073600, 9248310, 6246590, 3000110, 1765320], [0, 0, 0, 0, 0, 0, 0, 0, 0, 0, 0, 0, 0,
   0, 0, 0, 0, 0, 0, 0, 0, 0, 0], [0, 0, 0, 0, 0, 0, 0, 0, 0, 0, 0, 0, 0, 0, 0, 0, 0, 0, 0, 0, 0,
   0, 0], [0, 0, 0, 0, 0, 0, 0, 0, 0, 0, 0, 0, 0, 0, 0, 0, 0, 0, 0, 0, 0, 0, 0], [0, 0, 0, 0, 0, 0,
   0, 0, 0, 0, 0, 0, 0, 0, 0, 0, 0, 0, 0, 0, 0, 0, 0], [0, 0, 0, 0, 0, 0, 0, 0, 0, 0, 0, 0, 0, 0,
   0, 0, 0, 0, 0, 0, 0, 0, 0]]
/-- `reference/d4/params.py:1142-19554 refalpha`, row 71 -/
def refalpha71 : List (List Nat) := [[1368530670, 1042975620, 765562240, 402834860, 241515190,
   164764390, 123100420, 97790490, 80987470, 69030530, 60050390, 53018750, 42621270, 35227910,
   29673480, 25350740, 21903720, 15797660, 11891950, 7393030, 5021560, 2423920, 1430370],
   [489452970, 476317230, 442461460, 353576300, 274507560, 215311680, 172508500, 141326890,
   118136070, 100470280, 86694960, 75721550, 59462740, 48097520, 39777670, 33472210, 28563980,
   20147310, 14952460, 9145890, 6157550, 2938290, 1722380], [0, 0, 0, 0, 0, 0, 0, 0, 0, 0, 0, 0, 0,
   0, 0, 0, 0, 0, 0, 0, 0, 0, 0], [0, 0, 0, 0, 0, 0, 0, 0, 0, 0, 0, 0, 0, 0, 0, 0, 0, 0, 0, 0, 0,
   0, 0], [0, 0, 0, 0, 0, 0, 0, 0, 0, 0, 0, 0, 0, 0, 0, 0, 0, 0, 0, 0, 0, 0, 0], [0, 0, 0, 0, 0, 0,
   0, 0, 0, 0, 0, 0, 0, 0, 0, 0, 0, 0, 0, 0, 0, 0, 0], [0, 0, 0, 0, 0, 0, 0, 0, 0, 0, 0, 0, 0, 0,
   0, 0, 0, 0, 0, 0, 0, 0, 0]]
/-- `reference/d4/params.py:1142-19554 refalpha`, row 72 -/
def refalpha72 : List (List Nat) := [[1062816210, 954891650, 753034870, 441393100, 281355730,
   196843670, 147522820, 116120870, 94717210, 79330520, 67792700, 58843260, 45893730, 36999000,
   30536720, 25653680, 21856620, 15348190, 11334250, 6859220, 4568140, 2123490, 1215650],
   [824536570, 705184470, 567403060, 388993780, 283733700, 215865770, 169965970, 137660430,
   114103040, 96381650, 82684630, 71847890, 55917520, 44881220, 36863220, 30827340, 26157700,
   18222580, 13383190, 8045950, 5339520, 2472490, 1413400], [502657100, 492005530, 463604080,
   383345580, 305672240, 243724470, 196879820, 161687550, 134975460, 114368740, 98188790, 85264490,
   66139230, 52863370, 43241350, 36027470, 30471630, 21096360, 15428050, 9227930, 6106910, 2819190,
   1609740], [327095574, 324889582, 318527540, 296320422, 267617762, 238245539, 211219459,
   187537050, 167198153, 149828615, 134971673, 122201143, 101536814, 85678059, 73223689, 63253685,
   55145527, 40455469, 30833508, 19496957, 13382618, 6527061, 3847355], [0, 0, 0, 0, 0, 0, 0, 0, 0,
   0, 0, 0, 0, 0, 0, 0, 0, 0, 0, 0, 0, 0, 0], [0, 0, 0, 0, 0, 0, 0, 0, 0, 0, 0, 0, 0, 0, 0, 0, 0,
   0, 0, 0, 0, 0, 0], [0, 0, 0, 0, 0, 0, 0, 0, 0, 0, 0, 0, 0, 0, 0, 0, 0, 0, 0, 0, 0, 0, 0]]
/-- `reference/d4/params.py:1142-19554 refalpha`, row 73 -/
def refalpha73 : List (List Nat) := [[889256120, 819318660, 673277280, 419543150, 277130410,
   198298060, 150833980, 119897820, 98427490, 82781960, 70935190, 61684980, 48227300, 38952850,
   32207380, 27107210, 23138110, 16320700, 12099340, 7365720, 4925290, 2302270, 1321400],
   [693801270, 626525490, 523321990, 372824880, 278804010, 216007000, 172276620, 140778720,
   117401200, 99582810, 85679630, 74606290, 58231300, 46837700, 38543220, 32291230, 27448770,
   19201830, 14153120, 8555430, 5698730, 2652310, 1519760], [531343510, 501385310, 453135370,
   361734470, 285997780, 227928480, 184525250, 152001580, 127291810, 108187030, 93147510, 81103590,
   63220940, 50755740, 41686360, 34861320, 29585540, 20630420, 15171890, 9145820, 6082630, 2826130,
   1618310], [380167314, 377505450, 369868016, 343581519, 310182858, 276354658, 245337826,
   218145582, 194741943, 174704983, 157528316, 142738200, 118766483, 100346794, 85871211, 74275650,
   64837949, 47709367, 36456491, 23144054, 15929899, 7800977, 4607918], [0, 0, 0, 0, 0, 0, 0, 0, 0,
   0, 0, 0, 0, 0, 0, 0, 0, 0, 0, 0, 0, 0, 0], [0, 0, 0, 0, 0, 0, 0, 0, 0, 0, 0, 0, 0, 0, 0, 0, 0,
   0, 0, 0, 0, 0, 0], [0, 0, 0, 0, 0, 0, 0, 0, 0, 0, 0, 0, 0, 0, 0, 0, 0, 0, 0, 0, 0, 0, 0]]
/-- `reference/d4/params.py:1142-19554 refalpha`, row 74 -/
def refalpha74 : List (List Nat) := [[726835210, 665725390, 545218660, 351042250, 243743050,
   181885020, 142758210, 116114380, 96940500, 82552810, 71400870, 62531290, 49373670, 40140520,
   33348740, 28174560, 24125540, 17123560, 12753760, 7814210, 5246740, 2466040, 1418950],
   [579535230, 543254100, 473716060, 352077750, 269133880, 211900880, 171120840, 141184440,
   118610010, 101176970, 87429580, 76387710, 59912880, 48355390, 39899060, 33503580, 28537360,
   20050600, 14831160, 9012110, 6023820, 2816950, 1617650], [699811980, 687138070, 653381200,
   557596720, 462137800, 381741940, 317064340, 265625450, 224690330, 191923040, 165475190,
   143927290, 111480040, 88712130, 72191730, 59850930, 50399870, 34609450, 25183910, 14990770,
   9903650, 4569140, 2609890], [0, 0, 0, 0, 0, 0, 0, 0, 0, 0, 0, 0, 0, 0, 0, 0, 0, 0, 0, 0, 0, 0,
   0], [0, 0, 0, 0, 0, 0, 0, 0, 0, 0, 0, 0, 0, 0, 0, 0, 0, 0, 0, 0, 0, 0, 0], [0, 0, 0, 0, 0, 0, 0,
   0, 0, 0, 0, 0, 0, 0, 0, 0, 0, 0, 0, 0, 0, 0, 0], [0, 0, 0, 0, 0, 0, 0, 0, 0, 0, 0, 0, 0, 0, 0,
   0, 0, 0, 0, 0, 0, 0, 0]]
/-- `reference/d4/params.py:1142-19554 refalpha`, row 75 -/
def refalpha75 : List (List Nat) := [[709067150, 657037140, 552189840, 368309030, 256365300,
   190080410, 148342930, 120225100, 100181560, 85243540, 73716210, 64572650, 51034730, 41544350,
   34564620, 29246120, 25081950, 17869670, 13354090, 8224190, 5541320, 2617050, 1509270],
   [632047780, 580228720, 488925050, 346221050, 258457800, 201387260, 161920480, 133396770,
   112072140, 95682700, 82790220, 72445840, 57011200, 46167910, 38216470, 32187300, 27492670,
   19432630, 14442130, 8833880, 5929380, 2787900, 1604910], [619391170, 610033150, 584522600,
   508001250, 426897350, 355953060, 297653350, 250690300, 212990290, 182612110, 157959520,
   137781660, 107227960, 85655510, 69926320, 58130460, 49067170, 33857530, 24728560, 14797000,
   9808630, 4545450, 2601570], [0, 0, 0, 0, 0, 0, 0, 0, 0, 0, 0, 0, 0, 0, 0, 0, 0, 0, 0, 0, 0, 0,
   0], [0, 0, 0, 0, 0, 0, 0, 0, 0, 0, 0, 0, 0, 0, 0, 0, 0, 0, 0, 0, 0, 0, 0], [0, 0, 0, 0, 0, 0, 0,
   0, 0, 0, 0, 0, 0, 0, 0, 0, 0, 0, 0, 0, 0, 0, 0], [0, 0, 0, 0, 0, 0, 0, 0, 0, 0, 0, 0, 0, 0, 0,
   0, 0, 0, 0, 0, 0, 0, 0]]
/-- `reference/d4/params.py:1142-19554 refalpha`, row 76 -/
def refalpha76 : List (List Nat) := [[596083520, 562806020, 488648650, 341600550, 244374970,
   184318460, 145524170, 118947470, 99775490, 85355150, 74142660, 65190680, 51830340, 42381040,
   35384920, 30026950, 25815390, 18484760, 13867840, 8588690, 5808420, 2757360, 1594300],
   [466731420, 442599930, 409119690, 327985670, 258416100, 206679230, 168773970, 140534960,
   119009790, 102230790, 88884890, 78079950, 61792880, 50231940, 41694910, 35191180, 30110530,
   21356650, 15915890, 9776240, 6581110, 3107410, 1792660], [558892400, 551763930, 531894280,
   469039320, 398479720, 334618590, 281191240, 237725720, 202616430, 174199010, 151054600,
   132052620, 103167870, 82680590, 67685540, 56403850, 47711490, 33068100, 24236090, 14575360,
   9693850, 4512540, 2588140], [0, 0, 0, 0, 0, 0, 0, 0, 0, 0, 0, 0, 0, 0, 0, 0, 0, 0, 0, 0, 0, 0,
   0], [0, 0, 0, 0, 0, 0, 0, 0, 0, 0, 0, 0, 0, 0, 0, 0, 0, 0, 0, 0, 0, 0, 0], [0, 0, 0, 0, 0, 0, 0,
   0, 0, 0, 0, 0, 0, 0, 0, 0, 0, 0, 0, 0, 0, 0, 0], [0, 0, 0, 0, 0, 0, 0, 0, 0, 0, 0, 0, 0, 0, 0,
   0, 0, 0, 0, 0, 0, 0, 0]]
/-- `reference/d4/params.py:1142-19554 refalpha`, row 77 -/
def refalpha77 : List (List Nat) := [[515493740, 492234270, 437106450, 317225470, 232089290,
   177566590, 141614650, 116653050, 98468960, 84684340, 73894730, 65229570, 52199510, 42901010,
   35965860, 30623010, 26403160, 19013040, 14325800, 8926780, 6061140, 2892620, 1676580],
   [427200080, 413931980, 383655160, 310080660, 246653650, 199066380, 163877970, 137425380,
   117090270, 101115020, 88318110, 77890930, 62044270, 50689240, 42241180, 35767130, 30685910,
   21879850, 16370730, 10112500, 6832680, 3242250, 1874750], [401998410, 390125180, 363126410,
   301829760, 248286850, 205587890, 172259500, 146163560, 125495230, 108901200, 95396530, 84265790,
   67165300, 54810030, 45587850, 38517520, 32974500, 23400930, 17446250, 10727640, 7229650,
   3420560, 1975510], [432638615, 418727089, 389775692, 325354682, 268687902, 223369089, 187845502,
   159853930, 137519014, 119455547, 104662014, 92409010, 73500768, 59807691, 49594258, 41782069,
   35675888, 25185219, 18706839, 11451485, 7699740, 3635000, 2098079], [493567100, 481701200,
   453609500, 380546700, 310840500, 254572400, 211008600, 177296600, 150901300, 129932400,
   113032400, 99227200, 78265900, 63334100, 52320700, 43961000, 37462100, 26360300, 19540400,
   11932200, 8010500, 3773100, 2175100], [0, 0, 0, 0, 0, 0, 0, 0, 0, 0, 0, 0, 0, 0, 0, 0, 0, 0, 0,
   0, 0, 0, 0], [0, 0, 0, 0, 0, 0, 0, 0, 0, 0, 0, 0, 0, 0, 0, 0, 0, 0, 0, 0, 0, 0, 0]]
/-- `reference/d4/params.py:1142-19554 refalpha`, row 78 -/
def refalpha78 : List (List Nat) := [[411424820, 393180510, 350148090, 258710280, 195216660,
   154256100, 126507620, 106590770, 91609870, 79929620, 70565850, 62892190, 51074490, 42422610,
   35845540, 30705210, 26600560, 19319420, 14641410, 9193200, 6271910, 3012380, 1751400],
   [405572290, 393599010, 365944450, 297359090, 237699580, 192758940, 159444510, 134329020,
   114953860, 99672740, 87381500, 77325090, 61953270, 50856920, 42547590, 36144440, 31095350,
   22291660, 16746000, 10403320, 7055790, 3365800, 1951260], [549491410, 539578470, 513088730,
   437409950, 362053630, 299365010, 249624590, 210441630, 179395030, 154543750, 134423040,
   117944940, 92888530, 75040460, 61891800, 51927300, 44193840, 31019380, 22955520, 13992410,
   9386560, 4419430, 2547950], [0, 0, 0, 0, 0, 0, 0, 0, 0, 0, 0, 0, 0, 0, 0, 0, 0, 0, 0, 0, 0, 0,
   0], [0, 0, 0, 0, 0, 0, 0, 0, 0, 0, 0, 0, 0, 0, 0, 0, 0, 0, 0, 0, 0, 0, 0], [0, 0, 0, 0, 0, 0, 0,
   0, 0, 0, 0, 0, 0, 0, 0, 0, 0, 0, 0, 0, 0, 0, 0], [0, 0, 0, 0, 0, 0, 0, 0, 0, 0, 0, 0, 0, 0, 0,
   0, 0, 0, 0, 0, 0, 0, 0]]
/-- `reference/d4/params.py:1142-19554 refalpha`, row 79 -/
def refalpha79 : List (List Nat) := [[377290460, 361091840, 322722340, 240716250, 183385860,
   146143630, 120774260, 102474000, 88635320, 77783310, 69031680, 61817050, 50613040, 42321700,
   35957550, 30941580, 26907340, 19683670, 14994510, 9481020, 6497440, 3139430, 1830170],
   [366153320, 354187520, 325691470, 259574740, 205780280, 166720520, 138374270, 117244450,
   101016410, 88215770, 77887820, 69395760, 56295900, 46707850, 39429090, 33749190, 29220340,
   21203720, 16065850, 10093190, 6892520, 3316860, 1930410], [0, 0, 0, 0, 0, 0, 0, 0, 0, 0, 0, 0,
   0, 0, 0, 0, 0, 0, 0, 0, 0, 0, 0], [0, 0, 0, 0, 0, 0, 0, 0, 0, 0, 0, 0, 0, 0, 0, 0, 0, 0, 0, 0,
   0, 0, 0], [0, 0, 0, 0, 0, 0, 0, 0, 0, 0, 0, 0, 0, 0, 0, 0, 0, 0, 0, 0, 0, 0, 0], [0, 0, 0, 0, 0,
   0, 0, 0, 0, 0, 0, 0, 0, 0, 0, 0, 0, 0, 0, 0, 0, 0, 0], [0, 0, 0, 0, 0, 0, 0, 0, 0, 0, 0, 0, 0,
   0, 0, 0, 0, 0, 0, 0, 0, 0, 0]]
/-- `reference/d4/params.py:1142-19554 refalpha`, row 80 -/
def refalpha80 : List (List Nat) := [[371668150, 359903170, 329876470, 255237630, 195407590,
   154358360, 126124980, 105949600, 90927810, 79334090, 70116660, 62609290, 51108470, 42707020,
   36306640, 31280940, 27244100, 20009140, 15295470, 9722000, 6686340, 3246570, 1896630],
   [355596890, 349453750, 332600440, 282046230, 230451020, 188299000, 156024300, 131484490,
   112575930, 97724990, 85831260, 76133220, 61348920, 50678290, 42663670, 36457370, 31535120,
   22866750, 17331020, 10902810, 7455680, 3596280, 2095320], [0, 0, 0, 0, 0, 0, 0, 0, 0, 0, 0, 0,
   0, 0, 0, 0, 0, 0, 0, 0, 0, 0, 0], [0, 0, 0, 0, 0, 0, 0, 0, 0, 0, 0, 0, 0, 0, 0, 0, 0, 0, 0, 0,
   0, 0, 0], [0, 0, 0, 0, 0, 0, 0, 0, 0, 0, 0, 0, 0, 0, 0, 0, 0, 0, 0, 0, 0, 0, 0], [0, 0, 0, 0, 0,
   0, 0, 0, 0, 0, 0, 0, 0, 0, 0, 0, 0, 0, 0, 0, 0, 0, 0], [0, 0, 0, 0, 0, 0, 0, 0, 0, 0, 0, 0, 0,
   0, 0, 0, 0, 0, 0, 0, 0, 0, 0]]
/-- `reference/d4/params.py:1142-19554 refalpha`, row 81 -/
def refalpha81 : List (List Nat) := [[754787320, 669797680, 527293310, 332800020, 231647510,
   173598020, 137123950, 112540670, 95015210, 81942640, 71828260, 63767320, 51706100, 43089140,
   36612600, 31566110, 27528300, 20300880, 15579660, 9964200, 6883510, 3365720, 1974540],
   [737909520, 672077030, 551633950, 366818870, 261091350, 197299200, 156034900, 127753400,
   107414800, 92191530, 80412980, 71046070, 57107080, 47240350, 39895440, 34223730, 29722160,
   21752900, 16611010, 10561290, 7272340, 3542350, 2074800], [512159910, 490618590, 445281440,
   345954290, 266152220, 208897950, 168343740, 139090070, 117406120, 100876440, 87945760, 77596980,
   62135910, 51188320, 43061810, 36812160, 31873790, 23191740, 17638260, 11158640, 7661990,
   3719620, 2175450], [444232940, 435695950, 412468990, 344223640, 276300950, 221919640, 181026400,
   150481770, 127356250, 109495660, 95411710, 84086990, 67118360, 55101390, 46201450, 39379650,
   34008700, 24620390, 18658870, 11752790, 8049870, 3896270, 2275810], [0, 0, 0, 0, 0, 0, 0, 0, 0,
   0, 0, 0, 0, 0, 0, 0, 0, 0, 0, 0, 0, 0, 0], [0, 0, 0, 0, 0, 0, 0, 0, 0, 0, 0, 0, 0, 0, 0, 0, 0,
   0, 0, 0, 0, 0, 0], [0, 0, 0, 0, 0, 0, 0, 0, 0, 0, 0, 0, 0, 0, 0, 0, 0, 0, 0, 0, 0, 0, 0]]
/-- `reference/d4/params.py:1142-19554 refalpha`, row 82 -/
def refalpha82 : List (List Nat) := [[632905510, 595286430, 512607860, 354025850, 251394190,
   187947900, 147040930, 119322080, 99660590, 85145470, 74056250, 65334430, 52518040, 43552580,
   36919830, 31808980, 27750050, 20530120, 15823440, 10201520, 7090500, 3497720, 2060120],
   [574725650, 548466790, 488575900, 361749940, 268405620, 205425950, 162594910, 132605030,
   110893760, 94661890, 82168000, 72301920, 57780700, 47643580, 40179560, 34461300, 29946910,
   21989640, 16860470, 10800310, 7479170, 3673300, 2159550], [530414450, 510751360, 468366890,
   367990540, 283107680, 221045460, 176826350, 144967630, 121481600, 103717920, 89944640, 79020540,
   62898170, 51644070, 43379580, 37072310, 32113990, 23434100, 17888720, 11395320, 7865880,
   3848350, 2258800], [531115280, 517198390, 481733620, 388959490, 304802980, 240395110, 193203190,
   158625500, 132876830, 113287250, 98050600, 85950040, 68096590, 55666540, 46574470, 39666200,
   34259370, 24857500, 18900620, 11981450, 8247670, 4021920, 2357430], [500879780, 492042630,
   467719060, 393982430, 317542100, 254539200, 206426050, 170297710, 142980180, 121992850,
   105566110, 92468670, 73088260, 59581810, 49713460, 42231630, 36391300, 26281690, 19916070,
   12570530, 8631290, 4196110, 2456340], [0, 0, 0, 0, 0, 0, 0, 0, 0, 0, 0, 0, 0, 0, 0, 0, 0, 0, 0,
   0, 0, 0, 0], [0, 0, 0, 0, 0, 0, 0, 0, 0, 0, 0, 0, 0, 0, 0, 0, 0, 0, 0, 0, 0, 0, 0]]
/-- `reference/d4/params.py:1142-19554 refalpha`, row 83 -/
def refalpha83 : List (List Nat) := [[511916750, 494069930, 449458450, 341505430, 255045870,
   195073500, 153898030, 124998210, 104110930, 88561170, 76660440, 67322080, 53700990, 44292980,
   37418080, 32175040, 28044220, 20757420, 16033620, 10390450, 7253430, 3603050, 2129720],
   [516147800, 500629560, 461204110, 361339090, 276118910, 214077340, 170101490, 138592580,
   115510200, 98174290, 84832410, 74329030, 58982610, 48394220, 40683880, 34831190, 30243540,
   22217570, 17070420, 10988490, 7641350, 3778150, 2228850], [517479250, 504406230, 470464190,
   379441110, 296097990, 232406220, 185881070, 151912320, 126725630, 107660510, 92914280, 81270340,
   64226970, 52472620, 43934730, 37477030, 32435420, 23673900, 18104910, 11585430, 8028630,
   3953020, 2327880], [515178550, 504932930, 477156380, 395948620, 315084490, 250123180, 201276560,
   164983230, 137774350, 117031450, 100914150, 88151820, 69437270, 56530110, 47171930, 40113480,
   34620540, 25126730, 19137260, 12181320, 8415320, 4127710, 2426840], [0, 0, 0, 0, 0, 0, 0, 0, 0,
   0, 0, 0, 0, 0, 0, 0, 0, 0, 0, 0, 0, 0, 0], [0, 0, 0, 0, 0, 0, 0, 0, 0, 0, 0, 0, 0, 0, 0, 0, 0,
   0, 0, 0, 0, 0, 0], [0, 0, 0, 0, 0, 0, 0, 0, 0, 0, 0, 0, 0, 0, 0, 0, 0, 0, 0, 0, 0, 0, 0]]
/-- `reference/d4/params.py:1142-19554 refalpha`, row 84 -/
def refalpha84 : List (List Nat) := [[457354800, 445177550, 413554830, 329793560, 255092680,
   199242900, 158977680, 129790260, 108242560, 91984520, 79445240, 69570500, 55167450, 45271540,
   38097850, 32672340, 28429600, 21014180, 16245240, 10563850, 7399150, 3695680, 2190670],
   [479831520, 468085170, 437444240, 354613210, 278088110, 219082420, 175604940, 143629380,
   119797160, 101702660, 87691240, 76631150, 60479100, 49390680, 41374920, 35335950, 30634060,
   22476620, 17283170, 11162240, 7787240, 3870890, 2289900], [499757880, 488536140, 459097740,
   377785020, 299993350, 238231110, 191794330, 157185060, 131162960, 111291240, 95845740, 83625420,
   65753180, 53486700, 44636720, 37988870, 32830670, 23934820, 18318420, 11759270, 8174500,
   4045760, 2388960], [0, 0, 0, 0, 0, 0, 0, 0, 0, 0, 0, 0, 0, 0, 0, 0, 0, 0, 0, 0, 0, 0, 0], [0, 0,
   0, 0, 0, 0, 0, 0, 0, 0, 0, 0, 0, 0, 0, 0, 0, 0, 0, 0, 0, 0, 0], [0, 0, 0, 0, 0, 0, 0, 0, 0, 0,
   0, 0, 0, 0, 0, 0, 0, 0, 0, 0, 0, 0, 0], [0, 0, 0, 0, 0, 0, 0, 0, 0, 0, 0, 0, 0, 0, 0, 0, 0, 0,
   0, 0, 0, 0, 0]]
/-- `reference/d4/params.py:1142-19554 refalpha`, row 85 -/
def refalpha85 : List (List Nat) := [[391638670, 384250150, 364213580, 305411780, 246134160,
   197657890, 160524090, 132471470, 111156700, 94745710, 81909470, 71705270, 56711490, 46378720,
   38904420, 33277200, 28899970, 21310810, 16471780, 10734420, 7539160, 3784910, 2250150],
   [423026280, 415366110, 394596880, 333254640, 270380510, 218068890, 177463530, 146509070,
   122850030, 104566080, 90232990, 78825660, 62059600, 50520660, 42196050, 35950280, 31110670,
   22775460, 17510350, 11332590, 7926970, 3959980, 2349320], [0, 0, 0, 0, 0, 0, 0, 0, 0, 0, 0, 0,
   0, 0, 0, 0, 0, 0, 0, 0, 0, 0, 0], [0, 0, 0, 0, 0, 0, 0, 0, 0, 0, 0, 0, 0, 0, 0, 0, 0, 0, 0, 0,
   0, 0, 0], [0, 0, 0, 0, 0, 0, 0, 0, 0, 0, 0, 0, 0, 0, 0, 0, 0, 0, 0, 0, 0, 0, 0], [0, 0, 0, 0, 0,
   0, 0, 0, 0, 0, 0, 0, 0, 0, 0, 0, 0, 0, 0, 0, 0, 0, 0], [0, 0, 0, 0, 0, 0, 0, 0, 0, 0, 0, 0, 0,
   0, 0, 0, 0, 0, 0, 0, 0, 0, 0]]
/-- `reference/d4/params.py:1142-19554 refalpha`, row 86 -/
def refalpha86 : List (List Nat) := [[336514050, 331852420, 318852830, 277786920, 232154680,
   191736050, 158877090, 132945880, 112595530, 96544200, 83760900, 73462510, 58137240, 47476360,
   39742240, 33924070, 29410550, 21630540, 16707900, 10904110, 7676850, 3873300, 2309680], [0, 0,
   0, 0, 0, 0, 0, 0, 0, 0, 0, 0, 0, 0, 0, 0, 0, 0, 0, 0, 0, 0, 0], [0, 0, 0, 0, 0, 0, 0, 0, 0, 0,
   0, 0, 0, 0, 0, 0, 0, 0, 0, 0, 0, 0, 0], [0, 0, 0, 0, 0, 0, 0, 0, 0, 0, 0, 0, 0, 0, 0, 0, 0, 0,
   0, 0, 0, 0, 0], [0, 0, 0, 0, 0, 0, 0, 0, 0, 0, 0, 0, 0, 0, 0, 0, 0, 0, 0, 0, 0, 0, 0], [0, 0, 0,
   0, 0, 0, 0, 0, 0, 0, 0, 0, 0, 0, 0, 0, 0, 0, 0, 0, 0, 0, 0], [0, 0, 0, 0, 0, 0, 0, 0, 0, 0, 0,
   0, 0, 0, 0, 0, 0, 0, 0, 0, 0, 0, 0]]
/-- `reference/d4/params.py:1142-19554 refalpha`, row 87 -/
def refalpha87 : List (List Nat) := [[4327147900, 2335579300, 1070182700, 440853000, 281033000,
   209345200, 166243700, 136315900, 113991600, 96677100, 82919500, 71799800, 55146000, 43508500,
   35097800, 28846600, 24088600, 16232600, 11631100, 6772800, 4412400, 1999500, 1133100],
   [717862700, 655632800, 541920400, 373256900, 278786200, 219222000, 177602400, 146759000,
   123098200, 104527500, 89700500, 77695700, 59709800, 47146000, 38067300, 31317800, 26177400,
   17677400, 12686700, 7402500, 4828000, 2190400, 1241800], [0, 0, 0, 0, 0, 0, 0, 0, 0, 0, 0, 0, 0,
   0, 0, 0, 0, 0, 0, 0, 0, 0, 0], [0, 0, 0, 0, 0, 0, 0, 0, 0, 0, 0, 0, 0, 0, 0, 0, 0, 0, 0, 0, 0,
   0, 0], [0, 0, 0, 0, 0, 0, 0, 0, 0, 0, 0, 0, 0, 0, 0, 0, 0, 0, 0, 0, 0, 0, 0], [0, 0, 0, 0, 0, 0,
   0, 0, 0, 0, 0, 0, 0, 0, 0, 0, 0, 0, 0, 0, 0, 0, 0], [0, 0, 0, 0, 0, 0, 0, 0, 0, 0, 0, 0, 0, 0,
   0, 0, 0, 0, 0, 0, 0, 0, 0]]
/-- `reference/d4/params.py:1142-19554 refalpha`, row 88 -/
def refalpha88 : List (List Nat) := [[2641946900, 2087128200, 1310867200, 585103700, 345223400,
   240579200, 183378700, 147007500, 121522900, 102528100, 87789200, 76034500, 58576000, 46401400,
   37578800, 30994100, 25960600, 17595800, 12657400, 7404100, 4834900, 2196400, 1246000],
   [2651396600, 1699509800, 981252400, 499054300, 329673500, 243765600, 191292900, 155551100,
   129496000, 109644700, 94055800, 81543000, 62879300, 49836600, 40379200, 33319000, 27920600,
   18943900, 13638400, 7986700, 5218500, 2372200, 1346000], [715606700, 678481200, 596614200,
   435416700, 325219600, 252514100, 202337300, 166050300, 138797700, 117724500, 101056100,
   87631600, 67575400, 53557300, 43397400, 35815800, 30019600, 20380900, 14681100, 8603800,
   5624200, 2557800, 1451500], [0, 0, 0, 0, 0, 0, 0, 0, 0, 0, 0, 0, 0, 0, 0, 0, 0, 0, 0, 0, 0, 0,
   0], [0, 0, 0, 0, 0, 0, 0, 0, 0, 0, 0, 0, 0, 0, 0, 0, 0, 0, 0, 0, 0, 0, 0], [0, 0, 0, 0, 0, 0, 0,
   0, 0, 0, 0, 0, 0, 0, 0, 0, 0, 0, 0, 0, 0, 0, 0], [0, 0, 0, 0, 0, 0, 0, 0, 0, 0, 0, 0, 0, 0, 0,
   0, 0, 0, 0, 0, 0, 0, 0]]
/-- `reference/d4/params.py:1142-19554 refalpha`, row 89 -/
def refalpha89 : List (List Nat) := [[2044018400, 1672135700, 1166976800, 589801600, 355482400,
   245444200, 184663300, 146614600, 120557600, 101553600, 87067400, 75671200, 58964700, 47423400,
   39076000, 32826400, 28016000, 19881000, 14911800, 9333500, 6399800, 3122800, 1836600],
   [1834136300, 1517816800, 1068128600, 573476600, 366708800, 262420200, 201262600, 161394300,
   133398900, 112678800, 96750900, 84158400, 65630000, 52798300, 43506000, 36543400, 31181300,
   22109300, 16567900, 10353700, 7091700, 3455500, 2030800], [1614079900, 1157143200, 817711600,
   500677900, 349561700, 261999400, 205872400, 167260600, 139261300, 118135400, 101705400,
   88622700, 69258900, 55789300, 46011200, 38672800, 33014200, 23426400, 17561200, 10977400,
   7519600, 3664300, 2153500], [673757700, 651171500, 594934200, 458749400, 348544000, 270905200,
   216503900, 177357500, 148287300, 126068900, 108666700, 94754700, 74103600, 59711300, 49253800,
   41400800, 35342800, 25073400, 18789300, 11737000, 8036000, 3913300, 2299000], [1649995400,
   919493300, 688420500, 496464500, 376575900, 293281700, 234479400, 191936000, 160278600,
   136085200, 117157200, 102048100, 79668900, 64110900, 52827000, 44364700, 37843300, 26802300,
   20057200, 12503000, 8548300, 4154600, 2438300], [1712481300, 1346702700, 949592200, 588184700,
   422048900, 321668700, 254549400, 207156500, 172342600, 145947900, 125409800, 109080400,
   84991200, 68305600, 56230500, 47187200, 40224300, 28447600, 21261800, 13226700, 9029500,
   4378600, 2566800], [2134703400, 1682418500, 1142009000, 658443700, 460049400, 347217600,
   273472300, 221892600, 184196600, 155715000, 133612300, 116077400, 90274800, 72449200, 59573100,
   49942800, 42535700, 30024700, 22403700, 13900500, 9471100, 4579200, 2680300]]
/-- `reference/d4/params.py:1142-19554 refalpha`, row 90 -/
def refalpha90 : List (List Nat) := [[1513054900, 1320224300, 1003446200, 571424100, 368572000,
   263120900, 200921500, 160586100, 132526600, 111956600, 96267100, 83934800, 65881000, 53414100,
   44388100, 37617600, 32393500, 23514000, 18034400, 11755900, 8333100, 4292000, 2596900],
   [1420153100, 1217330500, 918672700, 546347100, 369218200, 271645700, 211160700, 170503600,
   141521300, 119928500, 103287100, 90118800, 70733400, 57296600, 47553200, 40241000, 34599200,
   25018100, 19119000, 12389500, 8744800, 4476600, 2700600], [1173109500, 992297800, 768788200,
   503595500, 364314400, 278344800, 220825100, 180276800, 150511500, 127931800, 110336600,
   96319300, 75576900, 61154900, 50688400, 42834100, 36777200, 26504100, 20194200, 13024000,
   9161700, 4667500, 2809400], [943173000, 838298000, 692480800, 495421600, 373912000, 291786500,
   233999800, 192059800, 160744500, 136753400, 117953000, 102929700, 80657000, 65163900, 53926400,
   45501000, 39009900, 28019000, 21285900, 13664400, 9580200, 4857600, 2917000], [639384900,
   624467300, 585371300, 479250300, 380867400, 304192900, 246745200, 203673800, 170925200,
   145573700, 125588400, 109564600, 85756600, 69183100, 57167300, 48165800, 41237600, 29526000,
   22370000, 14299100, 9995000, 5045900, 3023800], [0, 0, 0, 0, 0, 0, 0, 0, 0, 0, 0, 0, 0, 0, 0, 0,
   0, 0, 0, 0, 0, 0, 0], [0, 0, 0, 0, 0, 0, 0, 0, 0, 0, 0, 0, 0, 0, 0, 0, 0, 0, 0, 0, 0, 0, 0]]
/-- `reference/d4/params.py:1142-19554 refalpha`, row 91 -/
def refalpha91 : List (List Nat) := [[1666277700, 1412842200, 1024567200, 544640100, 341796000,
   243027300, 186668300, 150570800, 125481800, 106993500, 92777300, 81496500, 64741500, 52950000,
   44269000, 37665900, 32513500, 23641100, 18104700, 11736900, 8277200, 4229700, 2549700],
   [1570760700, 1299417100, 940821000, 526866900, 347765300, 254911900, 199067900, 161943000,
   135495700, 115701000, 100337700, 88082300, 69822000, 56964600, 47512600, 40337400, 34750100,
   25159300, 19200100, 12381800, 8700300, 4423200, 2659800], [1253575000, 978437100, 723248100,
   463109800, 336240800, 259618100, 208399900, 171993700, 144962900, 124214900, 107866200,
   94708600, 74982900, 61056300, 50822500, 43065100, 37034900, 26713600, 20325600, 13050400,
   9143500, 4629900, 2778900], [859686200, 765627700, 642651600, 469223500, 358900500, 283126800,
   229032600, 189260700, 159240300, 136038600, 117728300, 103012100, 81047700, 65655300, 54424900,
   45964700, 39422400, 28298800, 21464100, 13730200, 9600200, 4849700, 2907800], [682275000,
   656186000, 600315200, 476359800, 375304200, 299830600, 243945000, 202072400, 170133900,
   145306100, 125652700, 109835700, 86224300, 69698300, 57663500, 48615200, 41631000, 29787200,
   22534400, 14359100, 10013000, 5039200, 3015900], [646792300, 627768600, 583981800, 480808200,
   388769800, 315484100, 258960300, 215514400, 181846400, 155419400, 134379700, 117392400,
   91986100, 74202100, 61267800, 51560200, 44080900, 31434800, 23721400, 15065200, 10484700,
   5263900, 3147100], [0, 0, 0, 0, 0, 0, 0, 0, 0, 0, 0, 0, 0, 0, 0, 0, 0, 0, 0, 0, 0, 0, 0]]
/-- `reference/d4/params.py:1142-19554 refalpha`, row 92 -/
def refalpha92 : List (List Nat) := [[1596501800, 1358961000, 985086800, 523884600, 329239600,
   234920600, 181199800, 146740300, 122716700, 104952600, 91247400, 80337300, 64060900, 52539700,
   44011800, 37493700, 32386800, 23549100, 18011700, 11639600, 8188100, 4171000, 2511700],
   [1520261400, 1280014000, 927351000, 515592200, 337876600, 246849400, 192730100, 157026800,
   131693600, 112756900, 98051000, 86299200, 68721500, 56267000, 47052700, 40017400, 34511800,
   25003900, 19065000, 12259300, 8593000, 4354100, 2615100], [0, 0, 0, 0, 0, 0, 0, 0, 0, 0, 0, 0,
   0, 0, 0, 0, 0, 0, 0, 0, 0, 0, 0], [614627600, 581569300, 525979400, 411735600, 321632900,
   256872500, 210129300, 175503200, 149129800, 128533700, 112101300, 98751400, 78533600, 64113200,
   53437800, 45300700, 38949000, 28030200, 21254800, 13553100, 9444200, 4745300, 2838200],
   [577404400, 568541900, 530160000, 434071000, 348271900, 281717400, 231478600, 193339400,
   163930700, 140847800, 122416000, 107465100, 84924500, 68966500, 57238900, 48357500, 41463100,
   29695700, 22450200, 14268600, 9927100, 4980100, 2977000], [794643700, 661195700, 583424900,
   458165000, 362236200, 291719600, 239622200, 200392100, 170204000, 146497200, 127534500,
   112117900, 88796900, 72209000, 59978900, 50687300, 43458600, 31091800, 23465400, 14858200,
   10304100, 5142300, 3065600], [704499300, 684799400, 634736400, 508489300, 401019100, 321246100,
   262551100, 218601000, 184967500, 158683700, 137750900, 120799000, 95275500, 77224500, 63968700,
   53938000, 46158900, 32908100, 24778500, 15648600, 10839000, 5404200, 3221200]]
/-- `reference/d4/params.py:1142-19554 refalpha`, row 93 -/
def refalpha93 : List (List Nat) := [[1521283900, 1126033100, 754650300, 407348500, 273560900,
   206809600, 166270800, 138529700, 118126700, 102408900, 89906800, 79726400, 64187100, 52954100,
   44526000, 38023100, 32892800, 23947900, 18308500, 11805100, 8288300, 4212400, 2535000],
   [1342373900, 1043913800, 737094800, 428461500, 297209900, 226356900, 181746800, 150874400,
   128155700, 110712300, 96898800, 85700300, 68703800, 56495500, 47380100, 40373300, 34861800,
   25287800, 19276900, 12375000, 8661200, 4381200, 2630300], [1147257000, 897632500, 666972100,
   429194500, 311632400, 241344200, 194813300, 161874400, 137402200, 118546900, 103605200,
   91499700, 73160300, 60025000, 50243200, 42741300, 36851700, 26647300, 20260500, 12952900,
   9037800, 4550000, 2725000], [600193300, 577069100, 524809600, 408285800, 317259300, 252753700,
   206624400, 172654300, 146871900, 126773600, 110746900, 97721500, 77962000, 63820200, 53309800,
   45267100, 38966600, 28084000, 21298400, 13565600, 9440800, 4735100, 2830500], [576363300,
   557487000, 516348100, 421036900, 338112200, 274066600, 225760500, 189076000, 160757400,
   138491000, 120671800, 106181700, 84249600, 68637500, 57104900, 48330900, 41492500, 29761400,
   22502400, 14284600, 9924900, 4969800, 2969000], [798320500, 751734800, 660772100, 492762900,
   377995500, 299549600, 243770500, 202708100, 171576200, 147371100, 128142200, 112583100,
   89139600, 72512400, 60254600, 50940400, 43687700, 31261200, 23585600, 14918700, 10337700,
   5155700, 3073900], [908035900, 856049900, 745057100, 541947900, 409874200, 322515300, 261389000,
   216751400, 183064600, 156954400, 136261600, 119551600, 94434900, 76670300, 63603600, 53693600,
   45989500, 32819800, 24708700, 15580000, 10772700, 5356400, 3188900]]
/-- `reference/d4/params.py:1142-19554 refalpha`, row 94 -/
def refalpha94 : List (List Nat) := [[1727406800, 1456047800, 1017601400, 501348300, 299893400,
   208783400, 159825000, 129731100, 109295300, 94374300, 82894300, 73720700, 59862600, 49830600,
   42229300, 36292400, 31552100, 23146600, 17749500, 11443800, 8013800, 4048900, 2429100],
   [1406592400, 1093082900, 729347700, 399873900, 270421600, 203958100, 163706000, 136552700,
   116835500, 101759300, 89796700, 80042800, 65061100, 54099300, 45766100, 39256600, 34065100,
   24886100, 19018600, 12200100, 8514000, 4280500, 2561900], [977401900, 766673600, 594821600,
   395056600, 289200100, 225125400, 182688400, 152650100, 130297600, 113019800, 99268200, 88070400,
   70972100, 58592800, 49281200, 42075800, 36375400, 26400100, 20092900, 12829500, 8931300,
   4477700, 2676600], [553410200, 533923900, 491137600, 389121200, 305323900, 244542300, 200613900,
   168098900, 143347700, 124010300, 108558900, 95975700, 76828900, 63067200, 52796300, 44905800,
   38702400, 27935500, 21188100, 13475800, 9361600, 4682200, 2795900], [644204800, 578758900,
   516984400, 413225200, 330419600, 267589700, 220508700, 184869900, 157401000, 135812100,
   118528500, 104460800, 83125000, 67886100, 56588800, 47963800, 41220200, 29602100, 22380800,
   14185000, 9837900, 4912400, 2931600], [848162300, 792047800, 681430500, 492446000, 372617800,
   293656200, 238516500, 198304800, 167967800, 144437200, 125760100, 110645900, 87844200, 71628000,
   59634200, 50490700, 43348800, 31059900, 23434800, 14801600, 10238100, 5091100, 3031800],
   [1048008500, 965146400, 805042500, 554090700, 409972200, 319652500, 258009100, 213575000,
   180287900, 154598100, 134288200, 117907500, 93295100, 75870700, 63030100, 53269500, 45664200,
   32619200, 24554500, 15457800, 10668200, 5288100, 3144200]]
/-- `reference/d4/params.py:1142-19554 refalpha`, row 95 -/
def refalpha95 : List (List Nat) := [[1656020400, 1404979000, 990178200, 493590700, 296192400,
   206060600, 157483000, 127644400, 107432900, 92721600, 81436800, 72441600, 58886700, 49088800,
   41662600, 35853900, 31206400, 22934000, 17596300, 11336300, 7927300, 3995400, 2395000],
   [1330355100, 1049201500, 714375700, 397059900, 267872400, 201190900, 160990800, 134053800,
   114612800, 99817600, 88116500, 78596000, 63993200, 53309000, 45175500, 38808200, 33717600,
   24680100, 18873900, 12100600, 8433800, 4230600, 2530100], [600171500, 560454500, 485551000,
   351426600, 264217100, 208389700, 170639300, 143636900, 123396900, 107652600, 95044800, 84716500,
   68811000, 57167700, 48322200, 41417200, 35912700, 26182600, 19964200, 12747700, 8861000,
   4428000, 2643000], [546144300, 511618600, 471127900, 375251800, 295311700, 236871500, 194572200,
   163294500, 139514500, 120946300, 106104900, 94005700, 75548800, 62225400, 52235600, 44526600,
   38440900, 27818200, 21119300, 13427900, 9317700, 4650300, 2774800], [0, 0, 0, 0, 0, 0, 0, 0, 0,
   0, 0, 0, 0, 0, 0, 0, 0, 0, 0, 0, 0, 0, 0], [984837900, 886034800, 723488700, 495093900,
   367445600, 287272700, 232551600, 193161900, 163678900, 140916600, 122892600, 108318700,
   86315200, 70619800, 58964000, 50039600, 43039800, 30923300, 23354600, 14743400, 10182900,
   5049000, 3003000], [1133351500, 1025160900, 830136200, 552298300, 403635400, 313181900,
   252331600, 208827200, 176395700, 151435500, 131727500, 115836000, 91935200, 74970200, 62426800,
   52859400, 45379900, 32490100, 24478600, 15405500, 10620400, 5253100, 3120700]]
/-- `reference/d4/params.py:1142-19554 refalpha`, row 96 -/
def refalpha96 : List (List Nat) := [[1343978700, 1161743200, 863865200, 471493500, 297740500,
   212860100, 164817600, 134221500, 112973100, 97266500, 85121400, 75414700, 60822400, 50364900,
   42521500, 36447100, 31627600, 23136500, 17709800, 11384800, 7953700, 4005600, 2401100],
   [1266120300, 1093212500, 815723600, 470010300, 312023600, 228860500, 178996500, 146120400,
   122877600, 105566200, 92154200, 81444900, 65400500, 53965000, 45430500, 38848100, 33643500,
   24514700, 18709800, 11977200, 8343200, 4183500, 2502100], [992439600, 790151500, 603295100,
   400819000, 293585500, 227763000, 183964100, 153028700, 130129200, 112536800, 98618400, 87345600,
   70243600, 57942800, 48728300, 41613700, 35989600, 26140800, 19897500, 12686500, 8813000,
   4401500, 2627100], [546754500, 529826400, 487627000, 384660300, 299916200, 238921900, 195266100,
   163253800, 139077500, 120304700, 105370300, 93243200, 74828000, 61594600, 51700200, 44076700,
   38062400, 27561600, 20929600, 13299400, 9217200, 4587400, 2733100], [845347300, 757999500,
   627375400, 444811000, 335258000, 263562200, 213871200, 177920400, 150970200, 130153700,
   113665700, 100328800, 80175800, 65776600, 55060700, 46835900, 40367900, 29122400, 22054600,
   13961500, 9652100, 4787100, 2847100], [1106679000, 967153000, 759750200, 503030900, 369564000,
   287507400, 231990700, 192245300, 162621200, 139830200, 121836800, 107323800, 85473900, 69930100,
   58404300, 49584700, 42666900, 30681000, 23178500, 14623100, 10086600, 4986500, 2960800],
   [1339582500, 1160314800, 886352200, 560350700, 403477900, 311150200, 249872400, 206390300,
   174139100, 149408800, 129935600, 114264900, 90740700, 74064100, 61734700, 52323900, 44958300,
   32234500, 24298500, 15281900, 10519100, 5184700, 3073900]]
/-- `reference/d4/params.py:1142-19554 refalpha`, row 97 -/
def refalpha97 : List (List Nat) := [[1500841600, 1294893000, 933386400, 475743700, 287210300,
   199726200, 152301700, 123184200, 103534300, 89302400, 78439100, 69817100, 56882700, 47562600,
   40498600, 34960800, 30513700, 22538700, 17336700, 11172700, 7795800, 3907500, 2335900],
   [1259274100, 1040728300, 758864500, 432369500, 287502800, 211786000, 166537700, 136738100,
   115652200, 99908500, 87667100, 77849900, 63038300, 52375000, 44339000, 38085000, 33099800,
   24257000, 18562800, 11892700, 8272800, 4132100, 2466400], [942400900, 775243900, 589429600,
   390623400, 286154000, 222014200, 179361600, 149285100, 127060600, 110009500, 96528800, 85611300,
   69035300, 57087500, 48112700, 41162600, 35652100, 25958700, 19780000, 12610500, 8749900,
   4358100, 2598000], [529670000, 512081000, 472097200, 373875500, 292191000, 233037200, 190603100,
   159482500, 135995200, 117770200, 103277100, 91508100, 73623200, 60746100, 51093500, 43635300,
   37734800, 27388300, 20819400, 13228100, 9157300, 4545600, 2705000], [640310000, 576315700,
   504511300, 399025500, 317426200, 256004300, 210403300, 176213600, 150076100, 129656800,
   113372000, 100142700, 80081100, 65712100, 55008800, 46791300, 40329000, 29093900, 22032000,
   13943200, 9635500, 4775600, 2840300], [0, 0, 0, 0, 0, 0, 0, 0, 0, 0, 0, 0, 0, 0, 0, 0, 0, 0, 0,
   0, 0, 0, 0], [0, 0, 0, 0, 0, 0, 0, 0, 0, 0, 0, 0, 0, 0, 0, 0, 0, 0, 0, 0, 0, 0, 0]]
/-- `reference/d4/params.py:1142-19554 refalpha`, row 98 -/
def refalpha98 : List (List Nat) := [[1480091900, 1276682800, 918844400, 466738900, 281153000,
   195155900, 148547000, 119926300, 100613000, 86633000, 75974500, 67529100, 54897600, 45835000,
   38992300, 33643900, 29357800, 21685400, 16684900, 10758700, 7512000, 3775400, 2264700],
   [1307987300, 1038691600, 709979000, 393130600, 262475400, 194913500, 154458200, 127645500,
   108527200, 94145600, 82889000, 73811000, 60026700, 50036700, 42470200, 36557100, 31826600,
   23393000, 17930400, 11501400, 8003400, 4003300, 2395400], [533942300, 504801000, 447056500,
   330884500, 249852400, 196813400, 160762000, 135014100, 115794600, 100917600, 89061400, 79389900,
   64567000, 53760200, 45560600, 39153900, 34033800, 24929000, 19054800, 12173400, 8447900,
   4208400, 2512500], [504030000, 488894600, 451750100, 360185500, 282961100, 226345400, 185399200,
   155218100, 132371200, 114612700, 100478300, 88996800, 71551800, 59001600, 49603600, 42349300,
   36614600, 26567500, 20192700, 12829000, 8883200, 4418100, 2636500], [815874700, 686608200,
   565880100, 413108400, 317640400, 252149100, 205502500, 171270100, 145428400, 125405500,
   109527700, 96681900, 77278400, 63423900, 53117300, 45206000, 38981800, 28146400, 21321200,
   13489800, 9318000, 4619400, 2752100], [0, 0, 0, 0, 0, 0, 0, 0, 0, 0, 0, 0, 0, 0, 0, 0, 0, 0, 0,
   0, 0, 0, 0], [1297014900, 1111968900, 843720000, 539448000, 391948300, 303204900, 243568100,
   201026300, 169427700, 145209100, 126163400, 110860700, 87940400, 71734200, 59775200, 50658000,
   43526900, 31210200, 23523500, 14782600, 10166200, 5008300, 2974000]]
/-- `reference/d4/params.py:1142-19554 refalpha`, row 99 -/
def refalpha99 : List (List Nat) := [[1412201700, 1225206800, 890107400, 457447300, 277131900,
   192896700, 146962900, 118616100, 99415300, 85482600, 74847800, 66420500, 53832200, 44828400,
   38054200, 32777200, 28560600, 21040800, 16159000, 10393900, 7247100, 3640000, 2186500],
   [1271190700, 1011671600, 690944700, 384335200, 257933500, 192100200, 152410000, 125963000,
   107033800, 92761300, 81577800, 72557300, 58873100, 48978500, 41503900, 35677000, 31025200,
   22754300, 17412300, 11142700, 7742600, 3869300, 2317800], [515499300, 491951700, 438725300,
   327274200, 247930800, 195486400, 159633400, 133936100, 114716600, 99828300, 87965200, 78296100,
   63505900, 52757400, 44628300, 38294800, 33245500, 24293800, 18537300, 11814400, 8186900,
   4074700, 2435100], [487142300, 471908400, 436761400, 351176500, 277848700, 223133400, 183099600,
   153383400, 130793500, 113191000, 99161400, 87758300, 70433800, 57983900, 48676300, 41504500,
   35844500, 25951700, 19692400, 12483100, 8632400, 4290200, 2562900], [853606600, 704284500,
   568603800, 409584000, 313950300, 249036700, 202901400, 169042800, 143470300, 123646900,
   107923500, 95202500, 75994900, 62293800, 52113800, 44309500, 38176500, 27516900, 20815200,
   13141600, 9064900, 4489300, 2676700], [1174576200, 940368600, 706831300, 471236300, 351066300,
   275008100, 222441900, 184361400, 155817300, 133811300, 116435800, 102434300, 81400700, 66486900,
   55460500, 47042100, 40449500, 29043500, 21910300, 13783300, 9485600, 4682100, 2786700],
   [1507635300, 1175979300, 850999300, 537332400, 389845200, 301309200, 241804600, 199356900,
   167838100, 143694000, 124720300, 109487800, 86702100, 70620600, 58774600, 49757900, 42715100,
   30572800, 23010400, 14429200, 9909300, 4876200, 2897300]]
/-- `reference/d4/params.py:1142-19554 refalpha`, row 100 -/
def refalpha100 : List (List Nat) := [[1345132400, 1173651100, 860922200, 448044200, 273252700,
   190895400, 145664700, 117577800, 98459700, 84541400, 73899600, 65463600, 52877700, 43905500,
   37182100, 31964600, 27809400, 20430800, 15662000, 10051900, 7001100, 3516500, 2115700],
   [1234197800, 980796000, 673261100, 377049500, 254441800, 190089500, 150992900, 124780100,
   105937400, 91693800, 80521000, 71509400, 57857800, 48016800, 40607900, 34850500, 30266800,
   22145000, 16918400, 10804100, 7499000, 3746800, 2247500], [492489800, 471164900, 423467900,
   320194900, 244465800, 193482600, 158217100, 132748600, 113611400, 98749900, 86897000, 77237600,
   62483100, 51791900, 43731500, 37469800, 32490100, 23689400, 18048600, 11480300, 7947000,
   3954200, 2366200], [488289600, 467101500, 427341700, 342569100, 271850100, 218934500, 179996100,
   150945700, 128774400, 111448400, 97612400, 86353300, 69235800, 56936300, 47749000, 40677300,
   35102500, 25373800, 19230300, 12168900, 8406700, 4176900, 2498100], [899278200, 707326700,
   559993400, 402168300, 309059100, 245634500, 200342000, 166975800, 141706300, 122082400,
   106500500, 93887800, 74844400, 61272000, 51200400, 43489600, 37438000, 26938500, 20351400,
   12825800, 8837900, 4375200, 2611500], [1168173500, 932645400, 700509200, 466547100, 347567800,
   272346500, 220313300, 182566300, 154237200, 132378500, 115111700, 101196800, 80301600, 65502000,
   54575200, 46244600, 39729200, 28477600, 21456000, 13473800, 9263400, 4570600, 2723100],
   [1356122000, 1126927600, 838706100, 533717400, 387175500, 299159300, 240013000, 197798800,
   166432600, 142393700, 123498800, 108330400, 85652100, 69665300, 57906000, 48968900, 41998100,
   30004700, 22553400, 14119100, 9688000, 4766500, 2835300]]
/-- `reference/d4/params.py:1142-19554 refalpha`, row 101 -/
def refalpha101 : List (List Nat) := [[1302072000, 1141115300, 843232500, 441735800, 269219800,
   187618300, 142890700, 115253100, 96545200, 82988500, 72654300, 64473300, 52261900, 43528300,
   36953200, 31826200, 27725000, 20398100, 15632300, 10001900, 6937800, 3454500, 2067300],
   [1223584000, 967485900, 668292500, 373575000, 251065100, 186943300, 148200100, 122392800,
   103950300, 90069900, 79210100, 70460100, 57195500, 47603300, 40350800, 34690000, 30164800,
   22102000, 16882200, 10750900, 7433900, 3684100, 2198600], [505776500, 482323300, 431074800,
   321977700, 243573900, 191617800, 156147000, 130800000, 111905700, 97313000, 85713100, 76275000,
   61859700, 51392300, 43474700, 37302200, 32377200, 23633300, 18000600, 11419300, 7876700,
   3889300, 2316200], [712250100, 594085900, 489787800, 355944200, 271964200, 215383500, 175689600,
   146827100, 125133600, 108340600, 95007400, 84192200, 67771600, 55952800, 47088100, 40230100,
   34795100, 25235200, 19142100, 12088600, 8319600, 4097500, 2436900], [1003385300, 843364300,
   643830000, 421400900, 308493900, 239708700, 193555900, 160717600, 136333100, 117603700,
   102817000, 90876400, 72841600, 59935900, 50301200, 42876300, 37011600, 26742300, 20231300,
   12731600, 8742500, 4291600, 2547600], [0, 0, 0, 0, 0, 0, 0, 0, 0, 0, 0, 0, 0, 0, 0, 0, 0, 0, 0,
   0, 0, 0, 0], [0, 0, 0, 0, 0, 0, 0, 0, 0, 0, 0, 0, 0, 0, 0, 0, 0, 0, 0, 0, 0, 0, 0]]
/-- `reference/d4/params.py:1142-19554 refalpha`, row 102 -/
def refalpha102 : List (List Nat) := [[1248052800, 1100045000, 821183900, 435324100, 266190500,
   185568300, 141261500, 113882900, 95371900, 81977100, 71778500, 63710900, 51672000, 43056400,
   36562200, 31491500, 27430100, 20161900, 15426600, 9830300, 6790800, 3355800, 2000200],
   [1167644400, 957311100, 671224100, 376422800, 251782600, 186618300, 147429700, 121468300,
   103010700, 89177600, 78389200, 69715600, 56589500, 47104300, 39930400, 34326900, 29843700,
   21845800, 16661600, 10570800, 7281600, 3583200, 2130500], [501539300, 479467800, 428472600,
   320060400, 241919600, 190043700, 154660100, 129435000, 110680800, 96229000, 84760000, 75438000,
   61208100, 50872300, 43047000, 36939600, 32061100, 23386200, 17789200, 11246200, 7729500,
   3790900, 2249400], [913663900, 690314800, 536426300, 365348500, 271761000, 212644300, 172504600,
   143838400, 122513400, 106102800, 93114600, 82594600, 66624500, 55110600, 46451400, 39732400,
   34392500, 24961800, 18924500, 11916000, 8171200, 3995300, 2366600], [1242501600, 936045400,
   668688500, 421117700, 304955400, 235931200, 190153800, 157803700, 133883600, 115557700,
   101109200, 89447300, 71826000, 59194400, 49741900, 42439200, 36657200, 26498600, 20034100,
   12571400, 8603100, 4194600, 2480700], [1294476100, 978022200, 705399100, 449644600, 327582600,
   254115300, 204944800, 170008300, 144106000, 124242700, 108583100, 95951500, 76891000, 63255500,
   53071500, 45217400, 39008700, 28126000, 21221900, 13278300, 9068900, 4408400, 2602500],
   [1348206700, 1021887200, 744006500, 479164700, 350575700, 272357800, 219652600, 182071400,
   154169700, 132770900, 115910500, 102322400, 81848800, 67231300, 56332500, 47939800, 41314200,
   29723400, 22388600, 13973400, 9527200, 4618800, 2722400]]
/-- `reference/d4/params.py:1142-19554 refalpha`, row 103 -/
def refalpha103 : List (List Nat) := [[2066533200, 836937500, 648432200, 387234300, 251567100,
   180960100, 140318300, 114483000, 96673800, 83601100, 73535200, 65499200, 53380000, 44612000,
   37954000, 32730000, 28532900, 20999600, 16078600, 10246900, 7070000, 3474600, 2059100],
   [923161300, 829673800, 658155800, 409485200, 279903000, 206982400, 161941600, 131960200,
   110779900, 95086500, 83004100, 73410300, 59114700, 48952500, 41354500, 35468000, 30786100,
   22486600, 17134000, 10857400, 7466800, 3653500, 2160000], [845082300, 708844100, 546073800,
   367023400, 269875800, 208759700, 167762200, 138910500, 117749600, 101664300, 89059700, 78927900,
   63660200, 52713300, 44497300, 38123300, 33053600, 24078400, 18306800, 11565000, 7937900,
   3873200, 2286200], [475131300, 461744600, 428144500, 343869400, 271100000, 216792100, 177218900,
   148050900, 126061100, 109063200, 95606300, 84722600, 68249300, 56415400, 47538100, 40661300,
   35201400, 25565200, 19394100, 12216400, 8370200, 4074000, 2401300], [2424220100, 517872100,
   462957100, 367861900, 292534000, 235192300, 192597900, 160851700, 136784800, 118139300,
   103373100, 91439400, 73414600, 60511200, 50865400, 43417100, 37520400, 27154900, 20548700,
   12901200, 8821300, 4281400, 2519400], [1436356600, 960464200, 686157000, 455604500, 339675300,
   265910500, 214849100, 177937700, 150381700, 129231500, 112595600, 99227000, 79177900, 64946700,
   54383800, 46275900, 39888900, 28734500, 21676600, 13558600, 9251400, 4478000, 2631500],
   [1763109100, 1223954600, 830180800, 516133400, 373991000, 288827900, 231674700, 191031400,
   160971100, 138030600, 120054900, 105648400, 84103200, 68853900, 57560900, 48909700, 42106800,
   30256600, 22782900, 14215700, 9684800, 4677700, 2745500]]
/-- `reference/d4/params.py:1142-19554 refalpha`, times `10^7` -/
def refalpha : List (List (List Nat)) := [refalpha0, refalpha1, refalpha2, refalpha3, refalpha4,
   refalpha5, refalpha6, refalpha7, refalpha8, refalpha9, refalpha10, refalpha11, refalpha12,
   refalpha13, refalpha14, refalpha15, refalpha16, refalpha17, refalpha18, refalpha19, refalpha20,
   refalpha21, refalpha22, refalpha23, refalpha24, refalpha25, refalpha26, refalpha27, refalpha28,
   refalpha29, refalpha30, refalpha31, refalpha32, refalpha33, refalpha34, refalpha35, refalpha36,
   refalpha37, refalpha38, refalpha39, refalpha40, refalpha41, refalpha42, refalpha43, refalpha44,
   refalpha45, refalpha46, refalpha47, refalpha48, refalpha49, refalpha50, refalpha51, refalpha52,
   refalpha53, refalpha54, refalpha55, refalpha56, refalpha57, refalpha58, refalpha59, refalpha60,
   refalpha61, refalpha62, refalpha63, refalpha64, refalpha65, refalpha66, refalpha67, refalpha68,
   refalpha69, refalpha70, refalpha71, refalpha72, refalpha73, refalpha74, refalpha75, refalpha76,
   refalpha77, refalpha78, refalpha79, refalpha80, refalpha81, refalpha82, refalpha83, refalpha84,
   refalpha85, refalpha86, refalpha87, refalpha88, refalpha89, refalpha90, refalpha91, refalpha92,
   refalpha93, refalpha94, refalpha95, refalpha96, refalpha97, refalpha98, refalpha99, refalpha100,
   refalpha101, refalpha102, refalpha103]

end TadDftd4.Data
