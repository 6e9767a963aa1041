/-!
# Charges of the reference systems

Generated by `tools/gen_data.py` from `reference/d4/charge_eeq.py, reference/d4/charge_gfn2.py`; do not edit.
-/

namespace TadDftd4.Data

/-- `reference/d4/charge_eeq.py:29-969 clsq`, times `10^14` -/
def eeqQ : List (List Int) := [
   [0, 0, 0, 0, 0, 0, 0],
   [0, 0, 0, 0, 0, 0, 0],
   [0, 0, 0, 0, 0, 0, 0],
   [0, 37061732228445, 50233549783851, 0, 0, 0, 0],
   [0, 17355187691088, 31121011558254, 34700000000000, 0, 0, 0],
   [0, -10464538187607, -20153708141000, -28222637549158, -34038820700608, 0, 0],
   [0, -17123705791311, -14210003554128, -22250854670718, -25653918216622, -10441353918078, 21030312699251],
   [0, -35298592555229, -30125788296606, -82429723124422, 0, 0, 0],
   [0, -35471470167212, -59881526060460, 0, 0, 0, 0],
   [0, -24773915491465, 0, 0, 0, 0, 0],
   [0, 0, 0, 0, 0, 0, 0],
   [0, 37895090683878, 54307355286424, 0, 0, 0, 0],
   [0, 32933884303798, 51074920852765, 34300000000000, 0, 0, 0],
   [0, 3709152257935, 5079767549293, 5291396113772, 0, 0, 0],
   [0, 1649127941162, -640083798505, -3084420203156, -6585975737745, 0, 0],
   [0, -17987135979307, -12671124139840, -17467927422329, 0, 0, 0],
   [0, -16267234588041, -23775171448878, 0, 0, 0, 0],
   [0, -15045057451823, 0, 0, 0, 0, 0],
   [0, 0, 0, 0, 0, 0, 0],
   [0, 44376242787490, 30400000000000, 0, 0, 0, 0],
   [0, 31814452979636, 50078886624431, 24400000000000, 0, 0, 0],
   [0, 50144727255861, 62485373296540, 78700000000000, 0, 0, 0],
   [0, 32259167829296, 53505953733387, 90400000000000, 0, 0, 0],
   [0, 30538713298844, 39745931358650, 93500000000000, 0, 0, 0],
   [0, 17721817570715, 16754955881404, 61467776168125, 0, 0, 0],
   [0, 26888428905691, -1438794807264, 0, 0, 0, 0],
   [0, 16108330144470, 5493242513468, 0, 0, 0, 0],
   [0, 21568151580380, 20590049778110, -1577894818610, 0, 0, 0],
   [0, 9850839901243, 2948298358915, 2439689318964, 0, 0, 0],
   [0, 5450628884215, 0, 0, 0, 0, 0],
   [0, 25796918840353, 0, 0, 0, 0, 0],
   [0, 2870304944818, 4511416923234, 0, 0, 0, 0],
   [0, 938786608492, -592798448224, -3161585463110, -6445558548675, 0, 0],
   [0, -9954248086481, -11896736577051, -10225384717106, 0, 0, 0],
   [0, -12327157100582, -17535803722366, 0, 0, 0, 0],
   [0, -14490782122377, 0, 0, 0, 0, 0],
   [0, 0, 0, 0, 0, 0, 0],
   [0, 44852683448077, 41600000000000, 0, 0, 0, 0],
   [0, 42643340166796, 64902814271780, 51400000000000, 0, 0, 0],
   [0, 57618546114280, 72312847632101, 0, 0, 0, 0],
   [0, 34661262612707, 56547785565182, 94300000000000, 0, 0, 0],
   [0, 42830519499403, 56050948600940, 124600000000000, 0, 0, 0],
   [0, 46738200215089, 47338670395900, 59427677788562, 0, 0, 0],
   [0, 24709379453256, 18198173917164, 0, 0, 0, 0],
   [0, 32415456703039, 36375674498582, 0, 0, 0, 0],
   [0, 14509956942986, 18388211183689, 24549798804335, 0, 0, 0],
   [0, 22956514930613, 55444971429388, 0, 0, 0, 0],
   [0, 10670361771604, 0, 0, 0, 0, 0],
   [0, 21898540545170, 0, 0, 0, 0, 0],
   [0, 6391398485994, 10806425732282, 14171698994803, 0, 0, 0],
   [0, 3599066704066, 4368851386536, 3463534758499, 1418221277464, 0, 0],
   [0, -1439446368141, -1543201581300, -985357197761, 0, 0, 0],
   [0, -9115200126999, -9678003345023, 0, 0, 0, 0],
   [0, -13740767685282, 0, 0, 0, 0, 0],
   [0, 0, 0, 0, 0, 0, 0],
   [0, 46524059775602, 49200000000000, 0, 0, 0, 0],
   [0, 42198236936188, 63397117832958, 52800000000000, 0, 0, 0],
   [0, 65599616057853, 83084860530330, 0, 0, 0, 0],
   [78733393312177, 0, 0, 0, 0, 0, 0],
   [0, 78255214121928, 0, 0, 0, 0, 0],
   [0, 78608430866652, 0, 0, 0, 0, 0],
   [0, 79124653412356, 0, 0, 0, 0, 0],
   [0, 78972506109909, 0, 0, 0, 0, 0],
   [0, 65326281414848, 0, 0, 0, 0, 0],
   [0, 78994446367069, 0, 0, 0, 0, 0],
   [0, 79462439284960, 0, 0, 0, 0, 0],
   [0, 79518107342432, 0, 0, 0, 0, 0],
   [0, 80930480242405, 0, 0, 0, 0, 0],
   [0, 81306730354597, 0, 0, 0, 0, 0],
   [0, 81408370489997, 0, 0, 0, 0, 0],
   [0, 78415843735390, 0, 0, 0, 0, 0],
   [0, 82263187273050, 0, 0, 0, 0, 0],
   [0, 44266476936835, 68407375970491, 94300000000000, 0, 0, 0],
   [0, 23523422154086, 30980440015125, 109300000000000, 0, 0, 0],
   [0, 31319918056428, 23020705290823, 0, 0, 0, 0],
   [0, 10191716059118, -3451303623343, 0, 0, 0, 0],
   [0, 19864391765550, -6474020857185, 0, 0, 0, 0],
   [0, -1399684403519, -4786532465344, -7756443085155, -12042733196092, 0, 0],
   [0, 248540621951, 10111888298865, 0, 0, 0, 0],
   [0, 2560952126341, 0, 0, 0, 0, 0],
   [0, 11991146919920, 0, 0, 0, 0, 0],
   [0, 5732791283824, 10187349213041, 14012325640618, 0, 0, 0],
   [0, 11449566751294, 16758459323190, 18265663815354, 17825662719618, 0, 0],
   [0, 4276095694715, 6545183973370, 7662886467999, 0, 0, 0],
   [0, -4479748091835, -2201995669726, 0, 0, 0, 0],
   [0, -7596582020292, 0, 0, 0, 0, 0],
   [0, 0, 0, 0, 0, 0, 0],
   [0, 7920000000000, 0, 0, 0, 0, 0],
   [0, 23880000000000, 30820000000000, 0, 0, 0, 0],
   [0, 11750000000000, 18970000000000, 23800000000000, 27140000000000, 29250000000000, 30940000000000],
   [0, 8840000000000, 15380000000000, 20480000000000, 24330000000000, 0, 0],
   [0, 10670000000000, 18290000000000, 24670000000000, 29300000000000, 32920000000000, 0],
   [0, 7960000000000, 0, 16920000000000, 20390000000000, 19490000000000, 24560000000000],
   [0, 7660000000000, 13320000000000, 17550000000000, 21870000000000, 24240000000000, 26660000000000],
   [0, 14950000000000, 24790000000000, 31810000000000, 37790000000000, 40920000000000, 43640000000000],
   [0, 15100000000000, 24100000000000, 30680000000000, 0, 38010000000000, 40550000000000],
   [0, 7640000000000, 13380000000000, 17800000000000, 21120000000000, 23780000000000, 25950000000000],
   [0, 2210000000000, 4090000000000, 5620000000000, 7110000000000, 0, 0],
   [0, 15350000000000, 25390000000000, 33210000000000, 38680000000000, 0, 45000000000000],
   [0, 11350000000000, 19140000000000, 25500000000000, 29690000000000, 32680000000000, 34710000000000],
   [0, 9860000000000, 16690000000000, 22300000000000, 25830000000000, 28460000000000, 30460000000000],
   [0, 6780000000000, 11580000000000, 15370000000000, 17900000000000, 0, 0],
   [0, 4800000000000, 8650000000000, 11740000000000, 14110000000000, 15770000000000, 17180000000000],
   [0, 5050000000000, 8900000000000, 11910000000000, 14090000000000, 15740000000000, 17080000000000]]

/-- `reference/d4/charge_eeq.py:971-1911 clsh`, times `10^14` -/
def eeqH : List (List Int) := [
   [0, 0, 0, 0, 0, 0, 0],
   [0, 0, 0, 0, 0, 0, 0],
   [0, 0, 0, 0, 0, 0, 0],
   [0, -37061732228445, -50233549783851, 0, 0, 0, 0],
   [0, -17355187691088, -15560505779127, -34700000000000, 0, 0, 0],
   [0, 10464538187607, 10076854070500, 9407545849719, 11346273566869, 0, 0],
   [0, 17123705791311, 14210003554128, 11125427335359, 8551306072207, 10441353918078, -21030312699251],
   [0, 35298592555229, 30125788296606, 27476574374807, 0, 0, 0],
   [0, 35471470167212, 29940763030230, 0, 0, 0, 0],
   [0, 24773915491465, 0, 0, 0, 0, 0],
   [0, 0, 0, 0, 0, 0, 0],
   [0, -37895090683878, -54307355286424, 0, 0, 0, 0],
   [0, -32933884303798, -25537460426383, -34300000000000, 0, 0, 0],
   [0, -3709152257935, -2539883774646, -1763798704591, 0, 0, 0],
   [0, -1649127941162, 320041899253, 1542210101578, 2195325245915, 0, 0],
   [0, 17987135979307, 12671124139840, 5822642474110, 0, 0, 0],
   [0, 16267234588041, 11887585724439, 0, 0, 0, 0],
   [0, 15045057451823, 0, 0, 0, 0, 0],
   [0, 0, 0, 0, 0, 0, 0],
   [0, -44376242787490, -30400000000000, 0, 0, 0, 0],
   [0, -31814452979636, -25039443312215, -24400000000000, 0, 0, 0],
   [0, -25072363627930, -20828457765513, -26200000000000, 0, 0, 0],
   [0, -16129583914648, -13376488433347, -22575000000000, 0, 0, 0],
   [0, -15269356649422, -13248643786217, -18700000000000, 0, 0, 0],
   [0, -8860908785357, -1396246323450, -19615593415441, 0, 0, 0],
   [0, -13444214452845, 130799527933, 0, 0, 0, 0],
   [0, -8054165072235, -549324251347, 0, 0, 0, 0],
   [0, -10784075790190, -6863349926037, 175321646512, 0, 0, 0],
   [0, -4925419950621, -368537294864, -304961164871, 0, 0, 0],
   [0, -5450628884215, 0, 0, 0, 0, 0],
   [0, -12898459420177, 0, 0, 0, 0, 0],
   [0, -2870304944818, -2255708461617, 0, 0, 0, 0],
   [0, -938786608492, 296399224112, 1053861821037, 1611389637169, 0, 0],
   [0, 9954248086481, 5948368288525, 3408461572369, 0, 0, 0],
   [0, 12327157100582, 8767901861183, 0, 0, 0, 0],
   [0, 14490782122377, 0, 0, 0, 0, 0],
   [0, 0, 0, 0, 0, 0, 0],
   [0, -44852683448077, -41600000000000, 0, 0, 0, 0],
   [0, -42643340166796, -32451407135890, -51400000000000, 0, 0, 0],
   [0, -28809273057140, -24104282544034, 0, 0, 0, 0],
   [0, -17330631306353, -14136946391296, -23575000000000, 0, 0, 0],
   [0, -21415259749701, -18683649533647, -24920000000000, 0, 0, 0],
   [0, -23369100107545, -3944889199658, -9904612964760, 0, 0, 0],
   [0, -12354689726628, -1654379447015, 0, 0, 0, 0],
   [0, -16207728351520, -3637567449858, 0, 0, 0, 0],
   [0, -7254978471493, -6129403727896, -4909959760867, 0, 0, 0],
   [0, -11478257465306, -6930621428674, 0, 0, 0, 0],
   [0, -10670361771604, 0, 0, 0, 0, 0],
   [0, -10949270272585, 0, 0, 0, 0, 0],
   [0, -6391398485994, -5403212866141, -4723899664934, 0, 0, 0],
   [0, -3599066704066, -2184425693268, -1154511586166, -354555319366, 0, 0],
   [0, 1439446368141, 771600790650, 328452399254, 0, 0, 0],
   [0, 9115200126999, 4839001672511, 0, 0, 0, 0],
   [0, 13740767685282, 0, 0, 0, 0, 0],
   [0, 0, 0, 0, 0, 0, 0],
   [0, -46524059775602, -49200000000000, 0, 0, 0, 0],
   [0, -42198236936188, -31698558916479, -52800000000000, 0, 0, 0],
   [0, -32799808028927, -27694953510110, 0, 0, 0, 0],
   [-26244464437392, 0, 0, 0, 0, 0, 0],
   [0, -26085071373976, 0, 0, 0, 0, 0],
   [0, -26202810288884, 0, 0, 0, 0, 0],
   [0, -26374884470785, 0, 0, 0, 0, 0],
   [0, -26324168703303, 0, 0, 0, 0, 0],
   [0, -32663140707424, 0, 0, 0, 0, 0],
   [0, -26331482122356, 0, 0, 0, 0, 0],
   [0, -26487479761653, 0, 0, 0, 0, 0],
   [0, -26506035780811, 0, 0, 0, 0, 0],
   [0, -26976826747468, 0, 0, 0, 0, 0],
   [0, -27102243451532, 0, 0, 0, 0, 0],
   [0, -27136123496666, 0, 0, 0, 0, 0],
   [0, -26138614578463, 0, 0, 0, 0, 0],
   [0, -27421062424350, 0, 0, 0, 0, 0],
   [0, -22133238468418, -17101843992623, -23575000000000, 0, 0, 0],
   [0, -11761711077043, -10326813338375, -21860000000000, 0, 0, 0],
   [0, -15659959028214, -1918392107569, 0, 0, 0, 0],
   [0, -5095858029559, 313754874849, 0, 0, 0, 0],
   [0, -9932195882775, 647402085719, 0, 0, 0, 0],
   [0, 699842201760, 1595510821781, 1939110771289, 2408546639218, 0, 0],
   [0, -124270310976, -1263986037358, 0, 0, 0, 0],
   [0, -2560952126341, 0, 0, 0, 0, 0],
   [0, -5995573459960, 0, 0, 0, 0, 0],
   [0, -5732791283824, -5093674606521, -4670775213539, 0, 0, 0],
   [0, -11449566751294, -8379229661595, -6088554605118, -4456415679904, 0, 0],
   [0, -4276095694715, -3272591986685, -2554295489333, 0, 0, 0],
   [0, 4479748091835, 1100997834863, 0, 0, 0, 0],
   [0, 7596582020292, 0, 0, 0, 0, 0],
   [0, 0, 0, 0, 0, 0, 0],
   [0, -7920000000000, 0, 0, 0, 0, 0],
   [0, -23880000000000, -15410000000000, 0, 0, 0, 0],
   [0, -11750000000000, -9485000000000, -7933333333333, -6785000000000, -5850000000000, -5156666666667],
   [0, -8840000000000, -7690000000000, -6826666666667, -6082500000000, 0, 0],
   [0, -10670000000000, -9145000000000, -8223333333333, -7325000000000, -6584000000000, 0],
   [0, -7960000000000, 0, -5640000000000, -5097500000000, -3898000000000, -4093333333333],
   [0, -7660000000000, -6660000000000, -5850000000000, -5467500000000, -4848000000000, -4443333333333],
   [0, -14950000000000, -12395000000000, -10603333333333, -9447500000000, -8184000000000, -7273333333333],
   [0, -15100000000000, -12050000000000, -10226666666667, 0, -7602000000000, -6758333333333],
   [0, -7640000000000, -6690000000000, -5933333333333, -5280000000000, -4756000000000, -4325000000000],
   [0, -2210000000000, -2045000000000, -1873333333333, -1777500000000, 0, 0],
   [0, -15350000000000, -12695000000000, -11070000000000, -9670000000000, 0, -7500000000000],
   [0, -11350000000000, -9570000000000, -8500000000000, -7422500000000, -6536000000000, -5785000000000],
   [0, -9860000000000, -8345000000000, -7433333333333, -6457500000000, -5692000000000, -5076666666667],
   [0, -6780000000000, -5790000000000, -5123333333333, -4475000000000, 0, 0],
   [0, -4800000000000, -4325000000000, -3913333333333, -3527500000000, -3154000000000, -2863333333333],
   [0, -5050000000000, -4450000000000, -3970000000000, -3522500000000, -3148000000000, -2846666666667]]

/-- `reference/d4/charge_gfn2.py:29-816 refq`, times `10^14` -/
def gfnQ : List (List Int) := [
   [0, 0, 0, 0, 0, 0, 0],
   [0, 0, 0, 0, 0, 0, 0],
   [0, 0, 0, 0, 0, 0, 0],
   [0, 35924680736483, 60553105026862, 0, 0, 0, 0],
   [0, 35318171705506, 47868871444650, -65605016262773, 0, 0, 0],
   [-1, 15557155274674, 19433603553394, 24475443834742, 14920702115395, 0, 0],
   [-1, -12994792301999, -7885200894330, -7676292658733, -9463126916388, -2858894127595, 5061953301341],
   [0, -17975369721743, -15258555866677, -42898107659879, 0, 0, 0],
   [1, -33069420009468, -56376716743110, -2, 0, 0, 0],
   [1, -39039862127573, 0, 0, 0, 0, 0],
   [0, 0, 0, 0, 0, 0, 0],
   [0, 44612149004129, 69570459023927, 0, 0, 0, 0],
   [0, 31858696714581, 41366273285585, 50571212038828, 0, 0, 0],
   [-1, 24477359917277, 36087089581165, 43660315534647, 0, 0, 0],
   [0, 16996090538399, 24464651050076, 20893161783021, 36245469258615, 0, 0],
   [-2, -8781933942405, -3728416546523, -11027568692625, 0, 0, 0],
   [0, -17222533230765, -34208440200689, 0, 0, 0, 0],
   [0, -33096614692963, 0, 0, 0, 0, 0],
   [0, 0, 0, 0, 0, 0, 0],
   [0, 44919564669363, 70700012466991, 0, 0, 0, 0],
   [0, 42382301144653, 53704626474621, 63912284405165, 0, 0, 0],
   [-16423, 19081329495662, 57390951001388, 102910987985129, 0, 0, 0],
   [-32847, 38774830140171, 97207545160459, 145284490238150, 0, 0, 0],
   [-16528, 30616936989879, 39411696843052, 69749634235669, 0, 0, 0],
   [-208, 53605366789797, 32326600457791, 17434704715481, 0, 0, 0],
   [16527, 72906362172268, -138551399356320, 0, 0, 0, 0],
   [32847, 89971355662264, -19729173677108, 0, 0, 0, 0],
   [16425, 33885434982022, 6673726947568, -99922236530237, 0, 0, 0],
   [0, -2893652143275, -141046704877362, -149873637353726, 0, 0, 0],
   [0, 17543548739457, 0, 0, 0, 0, 0],
   [0, 22218813020625, 0, 0, 0, 0, 0],
   [-1, 30692560016815, 25583231781832, 0, 0, 0, 0],
   [-1, 15565415588149, 19489066026694, 7796365954686, 8330185602026, 0, 0],
   [0, 5341421485122, 8123466402805, 9121599779474, 0, 0, 0],
   [1, -14680263633976, -30550786355706, 0, 0, 0, 0],
   [0, -26466311607527, 0, 0, 0, 0, 0],
   [0, 0, 0, 0, 0, 0, 0],
   [0, 38168923853998, 61945426066521, 0, 0, 0, 0],
   [0, 35645143561998, 49180081018397, 58944749671323, 0, 0, 0],
   [-16424, 24428414680300, 57366289721017, 0, 0, 0, 0],
   [-32846, 23434724050528, 120638669472971, 159446204953052, 0, 0, 0],
   [-16530, 7227863443605, 29185185542919, 163800000000000, 0, 0, 0],
   [215, 41711608738091, -449557215843238, -6533097052885, 0, 0, 0],
   [16529, 64591594055856, -23793642312608, 0, 0, 0, 0],
   [32850, 33761249164822, -70670795998300, 0, 0, 0, 0],
   [16424, 13533447502854, -6808099954071, -946705792926, 0, 0, 0],
   [0, 13729986752066, -140283988548386, 0, 0, 0, 0],
   [88, 7743633228111, 0, 0, 0, 0, 0],
   [0, 33653584549362, 0, 0, 0, 0, 0],
   [0, 34258129843160, 26652372419494, 20507380029383, 0, 0, 0],
   [-1, 11709105905770, 20024277847179, 7115823557122, 2040246592599, 0, 0],
   [0, 11698834506861, 18480068371662, 23470973824995, 0, 0, 0],
   [1, -520338227711, -151877920060, 0, 0, 0, 0],
   [1, -18609272966361, 0, 0, 0, 0, 0],
   [0, 0, 0, 0, 0, 0, 0],
   [0, 44073166763575, 68068249931321, 0, 0, 0, 0],
   [0, 39462085293344, 56717887047949, 62956728884112, 0, 0, 0],
   [-16424, 14182729573672, 61948745805358, 0, 0, 0, 0],
   [54768224095698, 0, 0, 0, 0, 0, 0],
   [-21208, 56091390202022, 0, 0, 0, 0, 0],
   [-19384, 57175663319949, 0, 0, 0, 0, 0],
   [-47809, 57848494573230, 0, 0, 0, 0, 0],
   [-67069, 58363743729144, 0, 0, 0, 0, 0],
   [-29832, 14255010862838, 0, 0, 0, 0, 0],
   [-20011, 58503142163331, 0, 0, 0, 0, 0],
   [-17383, 60523146786190, 0, 0, 0, 0, 0],
   [-16680, 61019655094139, 0, 0, 0, 0, 0],
   [-16492, 62162856785073, 0, 0, 0, 0, 0],
   [-16442, 62470266440724, 0, 0, 0, 0, 0],
   [-16430, 63183032821235, 0, 0, 0, 0, 0],
   [-16425, 60550144239070, 0, 0, 0, 0, 0],
   [-16423, 64112998199707, 0, 0, 0, 0, 0],
   [-32846, 11182987101245, 103176947330435, 135275862077626, 0, 0, 0],
   [-16531, 16442900959316, 50275891608761, 184791460855243, 0, 0, 0],
   [-215, -33545451190268, -88683226154612, 0, 0, 0, 0],
   [1, 24763704610429, -118136092555004, 0, 0, 0, 0],
   [32846, 39810831827982, -74972152576721, 0, 0, 0, 0],
   [16428, 25293750608113, 7099664544311, 8089441537446, 7168988850722, 0, 0],
   [57, 6077075971517, -131315249908318, 0, 0, 0, 0],
   [0, 16039939518296, 0, 0, 0, 0, 0],
   [0, -4321502684659, 0, 0, 0, 0, 0],
   [-1, 30915981534272, 8292819294371, -9717467138010, 0, 0, 0],
   [-1, 25127061741389, 36893958472478, 20035516415189, 1348187443840, 0, 0],
   [0, 16648528849973, 27582968178310, 35078718856604, 0, 0, 0],
   [1, 13640050127609, 28152411931918, 0, 0, 0, 0],
   [1, 3800713219800, 0, 0, 0, 0, 0],
   [0, 0, 0, 0, 0, 0, 0]]

/-- `reference/d4/charge_gfn2.py:819-1606 refh`, times `10^14` -/
def gfnH : List (List Int) := [
   [0, 0, 0, 0, 0, 0, 0],
   [0, 0, 0, 0, 0, 0, 0],
   [0, 0, 0, 0, 0, 0, 0],
   [0, -35924680736483, -60553105026862, 0, 0, 0, 0],
   [0, -35318171705506, -23934435722325, 0, 0, 0, 0],
   [0, -15557155274761, -9716801776697, -8158481278247, -4973567371798, 0, 0],
   [0, 12994792301999, 7885200894330, 3838146329367, 3154375638796, 2858894127595, -5061953301341],
   [0, 17975369722031, 15258555866677, 14299369219960, 0, 0, 0],
   [0, 33069420009468, 28188358371555, 0, 0, 0, 0],
   [0, 39039862127574, 0, 0, 0, 0, 0],
   [0, 0, 0, 0, 0, 0, 0],
   [0, -44612149004129, -69570459023927, 0, 0, 0, 0],
   [0, -31858696714581, -20683136642793, 0, 0, 0, 0],
   [0, -24477359917277, -18043544790582, -14553438511549, 0, 0, 0],
   [0, -16996090538399, -12232325525038, -10446580891510, -12081823086205, 0, 0],
   [0, 8781933942403, 3728416546523, 3675856230875, 0, 0, 0],
   [0, 17222533230765, 17104220100345, 0, 0, 0, 0],
   [0, 33096614692963, 0, 0, 0, 0, 0],
   [0, 0, 0, 0, 0, 0, 0],
   [0, -44919564669363, -70700012466991, 0, 0, 0, 0],
   [0, -42382301144653, -26852313237311, -63912284405165, 0, 0, 0],
   [0, -9540664747831, -19130317000463, -34303662000000, 0, 0, 0],
   [0, -19387415070086, -24301886290115, -36600000000000, 0, 0, 0],
   [0, -15308468494977, -13137232283301, -13960000000000, 0, 0, 0],
   [0, -26802683372543, -2693883371483, -12895656370357, 0, 0, 0],
   [0, -36453181087692, 12595581759665, 0, 0, 0, 0],
   [0, -44985677831131, 1972917367711, 0, 0, 0, 0],
   [0, -16942717490891, -2224575649166, 11102470725582, 0, 0, 0],
   [0, 1446826083399, 17630838109670, 18734204669216, 0, 0, 0],
   [0, -17543548739456, 0, 0, 0, 0, 0],
   [0, -11109406510313, 0, 0, 0, 0, 0],
   [0, -30692560016815, -12791615890916, 0, 0, 0, 0],
   [0, -15565415588148, -9744533013347, -2598788651562, -2082546400506, 0, 0],
   [0, -5341421485122, -4061733201402, -3040533259825, 0, 0, 0],
   [0, 14680263633976, 15275393177853, 0, 0, 0, 0],
   [0, 26466311607527, 0, 0, 0, 0, 0],
   [0, 0, 0, 0, 0, 0, 0],
   [0, -38168923853998, -61945426066521, 0, 0, 0, 0],
   [0, -35645143561998, -24590040509199, -58944749671323, 0, 0, 0],
   [0, -12214207340151, -19122096573671, 0, 0, 0, 0],
   [0, -11717362032611, -30159667368243, -39900000000000, 0, 0, 0],
   [0, -3613931721803, -9728395180973, -32760000000000, 0, 0, 0],
   [0, -20855804369167, 37463101320270, 1088849508812, 0, 0, 0],
   [0, -32295797028009, 2163058392055, 0, 0, 0, 0],
   [0, -16880624582411, 7067079599830, 0, 0, 0, 0],
   [0, -6766723747867, 2269366651357, 189341152691, 0, 0, 0],
   [0, -6864993376014, 17535498568548, 0, 0, 0, 0],
   [0, -7743633228111, 0, 0, 0, 0, 0],
   [0, -16826792274681, 0, 0, 0, 0, 0],
   [0, -34258129843160, -13326186209747, -6835793343128, 0, 0, 0],
   [0, -11709105905770, -10012138923590, -2371941185707, -510061648150, 0, 0],
   [0, -11698834506861, -9240034185831, -7823657941665, 0, 0, 0],
   [0, 520338227710, 75938960030, 0, 0, 0, 0],
   [0, 18609272966361, 0, 0, 0, 0, 0],
   [0, 0, 0, 0, 0, 0, 0],
   [0, -44073166763575, -68068249931321, 0, 0, 0, 0],
   [0, -39462085293344, -28358943523975, -62956728884112, 0, 0, 0],
   [0, -7091364828303, -20649581935119, 0, 0, 0, 0],
   [-18256074698566, 0, 0, 0, 0, 0, 0],
   [0, -18697130067341, 0, 0, 0, 0, 0],
   [0, -19058554439983, 0, 0, 0, 0, 0],
   [0, -19282831524410, 0, 0, 0, 0, 0],
   [0, -19454581243048, 0, 0, 0, 0, 0],
   [0, -7127505431420, 0, 0, 0, 0, 0],
   [0, -19501047387777, 0, 0, 0, 0, 0],
   [0, -20174382262063, 0, 0, 0, 0, 0],
   [0, -20339885031380, 0, 0, 0, 0, 0],
   [0, -20720952261691, 0, 0, 0, 0, 0],
   [0, -20823422146908, 0, 0, 0, 0, 0],
   [0, -21061010940412, 0, 0, 0, 0, 0],
   [0, -20183381413024, 0, 0, 0, 0, 0],
   [0, -21370999399902, 0, 0, 0, 0, 0],
   [0, -5591493550625, -25794236832609, -33818965519407, 0, 0, 0],
   [0, -8221450482839, -16758630536254, -36958292171049, 0, 0, 0],
   [0, 16772725595657, 7390268846218, 0, 0, 0, 0],
   [0, -12381852305011, 10739644777728, 0, 0, 0, 0],
   [0, -19905415913991, 7497215257672, 0, 0, 0, 0],
   [0, -12646875304056, -2366554848104, -2022360384360, -1433797770974, 0, 0],
   [0, -3038537970592, 16414406238540, 0, 0, 0, 0],
   [0, -16039939518296, 0, 0, 0, 0, 0],
   [0, 2160751342330, 0, 0, 0, 0, 0],
   [0, -30915981534272, -4146409647185, 3239155712670, 0, 0, 0],
   [0, -25127061741389, -18446979236239, -6678505471730, -337046860960, 0, 0],
   [0, -16648528849972, -13791484089155, -11692906285535, 0, 0, 0],
   [0, -13640050127609, -14076205965959, 0, 0, 0, 0],
   [0, -3800713219800, 0, 0, 0, 0, 0],
   [0, 0, 0, 0, 0, 0, 0]]

end TadDftd4.Data
