/-!
# Pairwise weighting factors of D4S

Generated by `tools/gen_data.py` from `data/wfpair.py`; do not edit.
-/

namespace TadDftd4.Data

/-- `data/wfpair.py:40-3730 _wfpair`, times `10^9` -/
def wfpair0 : List Nat := [0, 0, 0, 0, 0, 0, 0, 0, 0, 0, 0, 0, 0, 0, 0, 0, 0, 0, 0, 0, 0, 0, 0, 0,
   0, 0, 0, 0, 0, 0, 0, 0, 0, 0, 0, 0, 0, 0, 0, 0, 0, 0, 0, 0, 0, 0, 0, 0, 0, 0, 0, 0, 0, 0, 0, 0,
   0, 0, 0, 0, 0, 0, 0, 0, 0, 0, 0, 0, 0, 0, 0, 0, 0, 0, 0, 0, 0, 0, 0, 0, 0, 0, 0, 0, 0, 0, 0, 0,
   0, 0, 0, 0, 0, 0, 0, 0, 0, 0, 0, 0, 0, 0, 0, 0, 0, 0, 0, 0, 0, 0, 0, 0, 0, 0, 0, 0, 0, 0, 0]
/-- `data/wfpair.py:40-3730 _wfpair`, row 1 -/
def wfpair1 : List Nat := [0, 3673526786, 6000000000, 1133125000, 758750000, 2256250000,
   2978258929, 3566562500, 4395535714, 4983839286, 5786071429, 651785714, 357633929, 1614464286,
   1881875000, 2202767857, 2496919643, 2817812500, 3005000000, 330892857, 945937500, 732008929,
   812232143, 785491071, 919196429, 544821429, 571562500, 1079642857, 1079642857, 1667946429,
   1293571429, 1694687500, 1828392857, 2069062500, 2229508929, 2416696429, 2523660714, 250669643,
   865714286, 598303571, 812232143, 785491071, 1106383929, 384375000, 544821429, 1106383929,
   1133125000, 1614464286, 2684107143, 1587723214, 1587723214, 1774910714, 1881875000, 2042321429,
   2069062500, 250669643, 1159866071, 544821429, 1881875000, 464598214, 491339286, 491339286,
   491339286, 651785714, 625044643, 544821429, 571562500, 518080357, 518080357, 544821429,
   571562500, 598303571, 972678571, 1026160714, 518080357, 464598214, 598303571, 2202767857,
   2042321429, 1908616071, 2256250000, 1614464286, 1507500000, 1667946429, 1774910714, 1881875000,
   1935357143, 785491071, 812232143, 785491071, 1106383929, 1079642857, 892455357, 1293571429,
   758750000, 1828392857, 945937500, 1079642857, 2924776786, 732008929, 1052901786, 1079642857,
   1106383929, 1079642857, 6000000000, 6000000000, 6000000000, 6000000000, 6000000000, 6000000000,
   6000000000, 6000000000, 6000000000, 6000000000, 6000000000, 6000000000, 6000000000, 6000000000,
   6000000000]
/-- `data/wfpair.py:40-3730 _wfpair`, row 2 -/
def wfpair2 : List Nat := [0, 6000000000, 6000000000, 2069062500, 1026160714, 6000000000,
   6000000000, 6000000000, 6000000000, 6000000000, 6000000000, 919196429, 544821429, 5277991071,
   6000000000, 6000000000, 6000000000, 6000000000, 6000000000, 705267857, 3005000000, 1213348214,
   1320312500, 1347053571, 1266830357, 732008929, 732008929, 1774910714, 1721428571, 4074642857,
   1881875000, 5277991071, 6000000000, 6000000000, 6000000000, 6000000000, 6000000000, 464598214,
   2764330357, 1026160714, 1320312500, 1320312500, 1587723214, 491339286, 705267857, 1694687500,
   1507500000, 4101383929, 2015580357, 4903616071, 6000000000, 6000000000, 6000000000, 6000000000,
   6000000000, 785491071, 1748169643, 865714286, 6000000000, 705267857, 732008929, 732008929,
   732008929, 1052901786, 892455357, 785491071, 812232143, 758750000, 758750000, 785491071,
   812232143, 838973214, 1667946429, 1801651786, 705267857, 598303571, 785491071, 2336473214,
   3058482143, 6000000000, 3085223214, 4716428571, 5358214286, 6000000000, 6000000000, 6000000000,
   6000000000, 1748169643, 3218928571, 1988839286, 2791071429, 3780491071, 1240089286, 3245669643,
   2710848214, 2443437500, 2550401786, 3593303571, 3459598214, 2764330357, 3620044643, 3673526786,
   3700267857, 2550401786, 6000000000, 6000000000, 6000000000, 6000000000, 6000000000, 6000000000,
   6000000000, 6000000000, 6000000000, 6000000000, 6000000000, 6000000000, 6000000000, 6000000000,
   6000000000]
/-- `data/wfpair.py:40-3730 _wfpair`, row 3 -/
def wfpair3 : List Nat := [0, 1133125000, 2069062500, 250669643, 384375000, 544821429, 812232143,
   838973214, 1026160714, 1373794643, 1641205357, 250669643, 250669643, 357633929, 464598214,
   464598214, 518080357, 571562500, 678526786, 116964286, 223928571, 170446429, 143705357,
   143705357, 277410714, 277410714, 304151786, 277410714, 277410714, 411116071, 330892857,
   384375000, 437857143, 464598214, 437857143, 491339286, 571562500, 90223214, 170446429,
   197187500, 170446429, 170446429, 277410714, 304151786, 330892857, 250669643, 304151786,
   411116071, 330892857, 330892857, 384375000, 411116071, 411116071, 437857143, 437857143,
   90223214, 197187500, 170446429, 384375000, 90223214, 90223214, 90223214, 90223214, 116964286,
   143705357, 116964286, 116964286, 116964286, 116964286, 116964286, 116964286, 143705357,
   170446429, 250669643, 330892857, 357633929, 330892857, 330892857, 437857143, 437857143,
   411116071, 330892857, 357633929, 411116071, 384375000, 384375000, 437857143, 90223214,
   116964286, 223928571, 197187500, 170446429, 197187500, 170446429, 197187500, 277410714,
   250669643, 143705357, 250669643, 197187500, 170446429, 197187500, 223928571, 223928571,
   6000000000, 6000000000, 6000000000, 6000000000, 6000000000, 6000000000, 6000000000, 6000000000,
   6000000000, 6000000000, 6000000000, 6000000000, 6000000000, 6000000000, 6000000000]
/-- `data/wfpair.py:40-3730 _wfpair`, row 4 -/
def wfpair4 : List Nat := [0, 758750000, 1026160714, 384375000, 330892857, 464598214, 518080357,
   544821429, 598303571, 705267857, 812232143, 304151786, 223928571, 304151786, 304151786,
   304151786, 330892857, 384375000, 437857143, 223928571, 250669643, 250669643, 277410714,
   223928571, 277410714, 223928571, 250669643, 330892857, 330892857, 304151786, 330892857,
   277410714, 304151786, 277410714, 304151786, 330892857, 357633929, 170446429, 223928571,
   250669643, 277410714, 277410714, 277410714, 170446429, 223928571, 277410714, 304151786,
   277410714, 277410714, 277410714, 277410714, 250669643, 250669643, 277410714, 277410714,
   116964286, 197187500, 223928571, 250669643, 197187500, 197187500, 197187500, 197187500,
   250669643, 250669643, 197187500, 223928571, 197187500, 197187500, 223928571, 223928571,
   250669643, 330892857, 304151786, 250669643, 197187500, 223928571, 277410714, 277410714,
   277410714, 277410714, 277410714, 250669643, 250669643, 223928571, 250669643, 250669643,
   197187500, 197187500, 170446429, 223928571, 223928571, 223928571, 223928571, 197187500,
   197187500, 197187500, 223928571, 197187500, 197187500, 197187500, 197187500, 197187500,
   170446429, 6000000000, 6000000000, 6000000000, 6000000000, 6000000000, 6000000000, 6000000000,
   6000000000, 6000000000, 6000000000, 6000000000, 6000000000, 6000000000, 6000000000, 6000000000]
/-- `data/wfpair.py:40-3730 _wfpair`, row 5 -/
def wfpair5 : List Nat := [0, 2256250000, 6000000000, 544821429, 464598214, 1480758929, 1935357143,
   2630625000, 3539821429, 4021160714, 4876875000, 357633929, 197187500, 972678571, 1320312500,
   1881875000, 2176026786, 2443437500, 2523660714, 143705357, 437857143, 330892857, 384375000,
   304151786, 544821429, 357633929, 357633929, 491339286, 518080357, 972678571, 598303571,
   1052901786, 1320312500, 1721428571, 1988839286, 2202767857, 2176026786, 116964286, 411116071,
   330892857, 384375000, 357633929, 518080357, 250669643, 357633929, 464598214, 544821429,
   945937500, 625044643, 999419643, 1106383929, 1400535714, 1667946429, 1748169643, 1774910714,
   116964286, 384375000, 277410714, 1560982143, 250669643, 250669643, 250669643, 250669643,
   330892857, 304151786, 277410714, 277410714, 250669643, 277410714, 277410714, 277410714,
   304151786, 491339286, 464598214, 330892857, 304151786, 384375000, 651785714, 1159866071,
   1454017857, 919196429, 1855133929, 945937500, 1213348214, 1454017857, 1721428571, 1641205357,
   357633929, 384375000, 357633929, 437857143, 357633929, 411116071, 919196429, 330892857,
   732008929, 411116071, 357633929, 705267857, 330892857, 357633929, 384375000, 411116071,
   464598214, 6000000000, 6000000000, 6000000000, 6000000000, 6000000000, 6000000000, 6000000000,
   6000000000, 6000000000, 6000000000, 6000000000, 6000000000, 6000000000, 6000000000, 6000000000]
/-- `data/wfpair.py:40-3730 _wfpair`, row 6 -/
def wfpair6 : List Nat := [0, 2978258929, 6000000000, 812232143, 518080357, 1935357143, 1828392857,
   2336473214, 3245669643, 3887455357, 4716428571, 384375000, 250669643, 1480758929, 1534241071,
   1694687500, 1855133929, 2069062500, 2309732143, 170446429, 1026160714, 518080357, 625044643,
   491339286, 651785714, 384375000, 384375000, 812232143, 812232143, 1560982143, 892455357,
   1507500000, 1480758929, 1614464286, 1694687500, 1855133929, 1935357143, 143705357, 865714286,
   464598214, 625044643, 571562500, 785491071, 250669643, 384375000, 758750000, 812232143,
   1454017857, 972678571, 1427276786, 1347053571, 1400535714, 1454017857, 1534241071, 1587723214,
   116964286, 838973214, 411116071, 1454017857, 304151786, 304151786, 304151786, 330892857,
   491339286, 384375000, 357633929, 357633929, 330892857, 330892857, 330892857, 357633929,
   384375000, 838973214, 812232143, 357633929, 304151786, 411116071, 1159866071, 1293571429,
   1507500000, 1560982143, 1347053571, 1347053571, 1347053571, 1373794643, 1427276786, 1507500000,
   838973214, 999419643, 705267857, 919196429, 838973214, 518080357, 812232143, 544821429,
   1347053571, 1186607143, 1026160714, 812232143, 1774910714, 1454017857, 1427276786, 1507500000,
   1106383929, 6000000000, 6000000000, 6000000000, 6000000000, 6000000000, 6000000000, 6000000000,
   6000000000, 6000000000, 6000000000, 6000000000, 6000000000, 6000000000, 6000000000, 6000000000]
/-- `data/wfpair.py:40-3730 _wfpair`, row 7 -/
def wfpair7 : List Nat := [0, 3566562500, 6000000000, 838973214, 544821429, 2630625000, 2336473214,
   3352633929, 5438437500, 6000000000, 6000000000, 437857143, 250669643, 2095803571, 2309732143,
   2684107143, 3058482143, 3593303571, 3753750000, 197187500, 1079642857, 625044643, 705267857,
   625044643, 678526786, 411116071, 411116071, 919196429, 919196429, 1908616071, 999419643,
   2256250000, 2282991071, 2496919643, 2710848214, 3058482143, 3031741071, 143705357, 919196429,
   518080357, 705267857, 651785714, 865714286, 277410714, 384375000, 865714286, 892455357,
   1881875000, 1079642857, 2095803571, 1988839286, 2095803571, 2229508929, 2389955357, 2443437500,
   143705357, 1106383929, 464598214, 2256250000, 384375000, 384375000, 384375000, 384375000,
   571562500, 464598214, 411116071, 437857143, 411116071, 411116071, 411116071, 437857143,
   464598214, 919196429, 919196429, 384375000, 330892857, 437857143, 1240089286, 1320312500,
   2256250000, 1667946429, 2095803571, 1908616071, 1988839286, 2069062500, 2176026786, 2229508929,
   865714286, 999419643, 838973214, 1427276786, 1694687500, 678526786, 1480758929, 678526786,
   1240089286, 1266830357, 1587723214, 1774910714, 2042321429, 1881875000, 1855133929, 1881875000,
   1320312500, 6000000000, 6000000000, 6000000000, 6000000000, 6000000000, 6000000000, 6000000000,
   6000000000, 6000000000, 6000000000, 6000000000, 6000000000, 6000000000, 6000000000, 6000000000]
/-- `data/wfpair.py:40-3730 _wfpair`, row 8 -/
def wfpair8 : List Nat := [0, 4395535714, 6000000000, 1026160714, 598303571, 3539821429,
   3245669643, 5438437500, 6000000000, 6000000000, 6000000000, 518080357, 304151786, 3325892857,
   3780491071, 5919776786, 6000000000, 6000000000, 6000000000, 223928571, 1373794643, 678526786,
   785491071, 705267857, 758750000, 437857143, 437857143, 999419643, 999419643, 2256250000,
   1079642857, 3218928571, 3940937500, 6000000000, 6000000000, 6000000000, 6000000000, 197187500,
   1052901786, 571562500, 758750000, 732008929, 919196429, 304151786, 437857143, 945937500,
   945937500, 2309732143, 1159866071, 3058482143, 3459598214, 5545401786, 6000000000, 6000000000,
   6000000000, 170446429, 1159866071, 491339286, 6000000000, 411116071, 411116071, 411116071,
   437857143, 625044643, 518080357, 464598214, 464598214, 437857143, 437857143, 464598214,
   464598214, 491339286, 972678571, 999419643, 411116071, 357633929, 491339286, 1347053571,
   1480758929, 4903616071, 1801651786, 2951517857, 2924776786, 4903616071, 6000000000, 6000000000,
   6000000000, 945937500, 2496919643, 1052901786, 1587723214, 2042321429, 732008929, 1828392857,
   812232143, 1400535714, 1507500000, 2149285714, 2042321429, 732008929, 2550401786, 2523660714,
   2470178571, 1507500000, 6000000000, 6000000000, 6000000000, 6000000000, 6000000000, 6000000000,
   6000000000, 6000000000, 6000000000, 6000000000, 6000000000, 6000000000, 6000000000, 6000000000,
   6000000000]
/-- `data/wfpair.py:40-3730 _wfpair`, row 9 -/
def wfpair9 : List Nat := [0, 4983839286, 6000000000, 1373794643, 705267857, 4021160714,
   3887455357, 6000000000, 6000000000, 6000000000, 6000000000, 625044643, 357633929, 3620044643,
   4181607143, 6000000000, 6000000000, 6000000000, 6000000000, 384375000, 1774910714, 785491071,
   892455357, 838973214, 919196429, 518080357, 518080357, 1159866071, 1159866071, 2630625000,
   1240089286, 3780491071, 4368794643, 6000000000, 6000000000, 6000000000, 6000000000, 250669643,
   1293571429, 651785714, 892455357, 838973214, 1052901786, 357633929, 491339286, 1133125000,
   1052901786, 2630625000, 1347053571, 3566562500, 3753750000, 6000000000, 6000000000, 6000000000,
   6000000000, 384375000, 1347053571, 571562500, 6000000000, 464598214, 491339286, 491339286,
   491339286, 705267857, 598303571, 544821429, 544821429, 518080357, 518080357, 518080357,
   544821429, 571562500, 1106383929, 1159866071, 491339286, 437857143, 571562500, 1560982143,
   1774910714, 5625625000, 2095803571, 3406116071, 3165446429, 5331473214, 6000000000, 6000000000,
   6000000000, 1106383929, 2496919643, 1400535714, 1855133929, 2389955357, 865714286, 2149285714,
   1801651786, 1748169643, 1694687500, 2309732143, 2336473214, 2122544643, 2550401786, 2523660714,
   2603883929, 1774910714, 6000000000, 6000000000, 6000000000, 6000000000, 6000000000, 6000000000,
   6000000000, 6000000000, 6000000000, 6000000000, 6000000000, 6000000000, 6000000000, 6000000000,
   6000000000]
/-- `data/wfpair.py:40-3730 _wfpair`, row 10 -/
def wfpair10 : List Nat := [0, 5786071429, 6000000000, 1641205357, 812232143, 4876875000,
   4716428571, 6000000000, 6000000000, 6000000000, 6000000000, 732008929, 437857143, 4235089286,
   5277991071, 6000000000, 6000000000, 6000000000, 6000000000, 678526786, 2550401786, 919196429,
   1026160714, 999419643, 1079642857, 598303571, 571562500, 1347053571, 1320312500, 3058482143,
   1427276786, 4181607143, 5652366071, 6000000000, 6000000000, 6000000000, 6000000000, 357633929,
   2149285714, 758750000, 1026160714, 999419643, 1186607143, 384375000, 544821429, 1293571429,
   1186607143, 3085223214, 1534241071, 3940937500, 4876875000, 6000000000, 6000000000, 6000000000,
   6000000000, 1079642857, 1400535714, 651785714, 6000000000, 544821429, 544821429, 571562500,
   571562500, 812232143, 678526786, 598303571, 625044643, 571562500, 598303571, 598303571,
   625044643, 651785714, 1240089286, 1373794643, 544821429, 491339286, 625044643, 1774910714,
   2095803571, 6000000000, 2363214286, 3780491071, 3940937500, 6000000000, 6000000000, 6000000000,
   6000000000, 1320312500, 2871294643, 1534241071, 2095803571, 2737589286, 919196429, 2470178571,
   2042321429, 1935357143, 1935357143, 2844553571, 2710848214, 2336473214, 3031741071, 3031741071,
   3005000000, 1935357143, 6000000000, 6000000000, 6000000000, 6000000000, 6000000000, 6000000000,
   6000000000, 6000000000, 6000000000, 6000000000, 6000000000, 6000000000, 6000000000, 6000000000,
   6000000000]
/-- `data/wfpair.py:40-3730 _wfpair`, row 11 -/
def wfpair11 : List Nat := [0, 651785714, 919196429, 250669643, 304151786, 357633929, 384375000,
   437857143, 518080357, 625044643, 732008929, 223928571, 250669643, 250669643, 223928571,
   250669643, 277410714, 304151786, 330892857, 170446429, 197187500, 170446429, 143705357,
   143705357, 250669643, 250669643, 250669643, 250669643, 250669643, 223928571, 277410714,
   197187500, 223928571, 223928571, 223928571, 250669643, 277410714, 143705357, 197187500,
   170446429, 170446429, 170446429, 223928571, 197187500, 223928571, 223928571, 250669643,
   223928571, 250669643, 223928571, 223928571, 197187500, 197187500, 223928571, 223928571,
   143705357, 170446429, 143705357, 197187500, 90223214, 116964286, 116964286, 116964286,
   143705357, 143705357, 116964286, 116964286, 116964286, 116964286, 116964286, 143705357,
   143705357, 197187500, 223928571, 197187500, 197187500, 223928571, 223928571, 223928571,
   223928571, 223928571, 223928571, 197187500, 197187500, 197187500, 197187500, 223928571,
   170446429, 170446429, 170446429, 170446429, 143705357, 197187500, 143705357, 170446429,
   197187500, 197187500, 143705357, 197187500, 170446429, 143705357, 170446429, 143705357,
   170446429, 6000000000, 6000000000, 6000000000, 6000000000, 6000000000, 6000000000, 6000000000,
   6000000000, 6000000000, 6000000000, 6000000000, 6000000000, 6000000000, 6000000000, 6000000000]
/-- `data/wfpair.py:40-3730 _wfpair`, row 12 -/
def wfpair12 : List Nat := [0, 357633929, 544821429, 250669643, 223928571, 197187500, 250669643,
   250669643, 304151786, 357633929, 437857143, 250669643, 90223214, 116964286, 116964286,
   143705357, 143705357, 170446429, 197187500, 90223214, 116964286, 143705357, 143705357,
   143705357, 116964286, 143705357, 143705357, 143705357, 143705357, 116964286, 143705357,
   116964286, 116964286, 116964286, 116964286, 143705357, 143705357, 63482143, 90223214, 90223214,
   143705357, 143705357, 116964286, 116964286, 143705357, 116964286, 116964286, 116964286,
   116964286, 116964286, 116964286, 90223214, 116964286, 116964286, 116964286, 36741071, 63482143,
   90223214, 90223214, 90223214, 90223214, 90223214, 90223214, 90223214, 90223214, 116964286,
   90223214, 116964286, 116964286, 116964286, 116964286, 116964286, 143705357, 143705357,
   116964286, 116964286, 116964286, 116964286, 116964286, 116964286, 116964286, 116964286,
   90223214, 90223214, 90223214, 90223214, 116964286, 90223214, 90223214, 90223214, 90223214,
   90223214, 90223214, 90223214, 90223214, 90223214, 90223214, 90223214, 90223214, 90223214,
   90223214, 90223214, 90223214, 90223214, 6000000000, 6000000000, 6000000000, 6000000000,
   6000000000, 6000000000, 6000000000, 6000000000, 6000000000, 6000000000, 6000000000, 6000000000,
   6000000000, 6000000000, 6000000000]
/-- `data/wfpair.py:40-3730 _wfpair`, row 13 -/
def wfpair13 : List Nat := [0, 1614464286, 5277991071, 357633929, 304151786, 972678571, 1480758929,
   2095803571, 3325892857, 3620044643, 4235089286, 250669643, 116964286, 1855133929, 865714286,
   2176026786, 2309732143, 2470178571, 2657366071, 90223214, 277410714, 223928571, 223928571,
   170446429, 357633929, 223928571, 250669643, 304151786, 330892857, 571562500, 384375000,
   1801651786, 945937500, 2069062500, 2176026786, 2256250000, 2389955357, 63482143, 250669643,
   223928571, 223928571, 223928571, 330892857, 170446429, 250669643, 304151786, 357633929,
   571562500, 384375000, 1667946429, 625044643, 1935357143, 1988839286, 2042321429, 2149285714,
   63482143, 223928571, 197187500, 1988839286, 143705357, 170446429, 170446429, 170446429,
   197187500, 197187500, 170446429, 170446429, 170446429, 170446429, 170446429, 170446429,
   197187500, 277410714, 277410714, 223928571, 197187500, 277410714, 384375000, 651785714,
   1293571429, 544821429, 437857143, 491339286, 1908616071, 1908616071, 1988839286, 2069062500,
   197187500, 223928571, 223928571, 197187500, 197187500, 250669643, 1079642857, 197187500,
   357633929, 250669643, 197187500, 304151786, 223928571, 197187500, 223928571, 223928571,
   277410714, 6000000000, 6000000000, 6000000000, 6000000000, 6000000000, 6000000000, 6000000000,
   6000000000, 6000000000, 6000000000, 6000000000, 6000000000, 6000000000, 6000000000, 6000000000]
/-- `data/wfpair.py:40-3730 _wfpair`, row 14 -/
def wfpair14 : List Nat := [0, 1881875000, 6000000000, 464598214, 304151786, 1320312500,
   1534241071, 2309732143, 3780491071, 4181607143, 5277991071, 223928571, 116964286, 865714286,
   1133125000, 1908616071, 2496919643, 2844553571, 2844553571, 90223214, 357633929, 250669643,
   277410714, 223928571, 411116071, 250669643, 250669643, 384375000, 437857143, 812232143,
   491339286, 1801651786, 1186607143, 1962098214, 2389955357, 2523660714, 2309732143, 63482143,
   330892857, 250669643, 277410714, 277410714, 411116071, 170446429, 250669643, 357633929,
   437857143, 812232143, 491339286, 1855133929, 945937500, 1427276786, 1962098214, 2202767857,
   1908616071, 63482143, 330892857, 223928571, 1667946429, 170446429, 197187500, 197187500,
   197187500, 250669643, 223928571, 197187500, 223928571, 197187500, 197187500, 197187500,
   223928571, 223928571, 411116071, 384375000, 223928571, 197187500, 277410714, 491339286,
   785491071, 1373794643, 732008929, 1721428571, 785491071, 1213348214, 1694687500, 2042321429,
   1801651786, 304151786, 304151786, 277410714, 277410714, 732008929, 357633929, 785491071,
   250669643, 625044643, 330892857, 250669643, 437857143, 250669643, 250669643, 277410714,
   304151786, 357633929, 6000000000, 6000000000, 6000000000, 6000000000, 6000000000, 6000000000,
   6000000000, 6000000000, 6000000000, 6000000000, 6000000000, 6000000000, 6000000000, 6000000000,
   6000000000]
/-- `data/wfpair.py:40-3730 _wfpair`, row 15 -/
def wfpair15 : List Nat := [0, 2202767857, 6000000000, 464598214, 304151786, 1881875000,
   1694687500, 2684107143, 5919776786, 6000000000, 6000000000, 250669643, 143705357, 2176026786,
   1908616071, 2630625000, 3566562500, 3887455357, 4342053571, 90223214, 491339286, 304151786,
   357633929, 250669643, 411116071, 250669643, 250669643, 464598214, 518080357, 1106383929,
   571562500, 2015580357, 1962098214, 2630625000, 3218928571, 3432857143, 3727008929, 90223214,
   437857143, 304151786, 357633929, 330892857, 491339286, 170446429, 250669643, 437857143,
   518080357, 1133125000, 598303571, 1962098214, 1667946429, 2470178571, 2844553571, 2978258929,
   3165446429, 63482143, 437857143, 250669643, 2791071429, 197187500, 223928571, 223928571,
   223928571, 304151786, 277410714, 250669643, 250669643, 223928571, 223928571, 223928571,
   250669643, 250669643, 518080357, 464598214, 223928571, 197187500, 277410714, 625044643,
   812232143, 2309732143, 892455357, 1774910714, 1454017857, 2416696429, 2710848214, 2791071429,
   2951517857, 411116071, 437857143, 357633929, 972678571, 919196429, 384375000, 625044643,
   330892857, 838973214, 411116071, 999419643, 518080357, 304151786, 304151786, 357633929,
   384375000, 437857143, 6000000000, 6000000000, 6000000000, 6000000000, 6000000000, 6000000000,
   6000000000, 6000000000, 6000000000, 6000000000, 6000000000, 6000000000, 6000000000, 6000000000,
   6000000000]
/-- `data/wfpair.py:40-3730 _wfpair`, row 16 -/
def wfpair16 : List Nat := [0, 2496919643, 6000000000, 518080357, 330892857, 2176026786,
   1855133929, 3058482143, 6000000000, 6000000000, 6000000000, 277410714, 143705357, 2309732143,
   2496919643, 3566562500, 6000000000, 6000000000, 6000000000, 116964286, 571562500, 357633929,
   411116071, 304151786, 437857143, 250669643, 277410714, 544821429, 571562500, 1293571429,
   625044643, 2122544643, 2657366071, 3860714286, 6000000000, 6000000000, 6000000000, 90223214,
   518080357, 330892857, 411116071, 384375000, 544821429, 197187500, 277410714, 518080357,
   571562500, 1320312500, 678526786, 2069062500, 2256250000, 3673526786, 6000000000, 6000000000,
   6000000000, 63482143, 598303571, 304151786, 6000000000, 223928571, 250669643, 250669643,
   250669643, 357633929, 304151786, 277410714, 277410714, 250669643, 250669643, 250669643,
   277410714, 277410714, 571562500, 518080357, 250669643, 223928571, 277410714, 732008929,
   865714286, 3646785714, 999419643, 1881875000, 1988839286, 3753750000, 6000000000, 6000000000,
   6000000000, 491339286, 518080357, 437857143, 999419643, 1186607143, 437857143, 758750000,
   357633929, 919196429, 491339286, 1133125000, 598303571, 357633929, 411116071, 1962098214,
   1721428571, 518080357, 6000000000, 6000000000, 6000000000, 6000000000, 6000000000, 6000000000,
   6000000000, 6000000000, 6000000000, 6000000000, 6000000000, 6000000000, 6000000000, 6000000000,
   6000000000]
/-- `data/wfpair.py:40-3730 _wfpair`, row 17 -/
def wfpair17 : List Nat := [0, 2817812500, 6000000000, 571562500, 384375000, 2443437500,
   2069062500, 3593303571, 6000000000, 6000000000, 6000000000, 304151786, 170446429, 2470178571,
   2844553571, 3887455357, 6000000000, 6000000000, 6000000000, 116964286, 651785714, 411116071,
   464598214, 357633929, 491339286, 277410714, 304151786, 598303571, 625044643, 1480758929,
   705267857, 2309732143, 3085223214, 4208348214, 6000000000, 6000000000, 6000000000, 90223214,
   598303571, 384375000, 464598214, 437857143, 598303571, 197187500, 304151786, 571562500,
   625044643, 1507500000, 732008929, 2256250000, 2630625000, 4021160714, 6000000000, 6000000000,
   6000000000, 90223214, 838973214, 330892857, 6000000000, 250669643, 277410714, 277410714,
   277410714, 384375000, 330892857, 304151786, 304151786, 277410714, 277410714, 277410714,
   304151786, 330892857, 651785714, 598303571, 277410714, 250669643, 330892857, 838973214,
   945937500, 4689687500, 1133125000, 2069062500, 2256250000, 4101383929, 6000000000, 6000000000,
   6000000000, 571562500, 2176026786, 518080357, 1052901786, 1293571429, 518080357, 865714286,
   437857143, 1133125000, 571562500, 1266830357, 732008929, 411116071, 945937500, 1988839286,
   1881875000, 625044643, 6000000000, 6000000000, 6000000000, 6000000000, 6000000000, 6000000000,
   6000000000, 6000000000, 6000000000, 6000000000, 6000000000, 6000000000, 6000000000, 6000000000,
   6000000000]
/-- `data/wfpair.py:40-3730 _wfpair`, row 18 -/
def wfpair18 : List Nat := [0, 3005000000, 6000000000, 678526786, 437857143, 2523660714,
   2309732143, 3753750000, 6000000000, 6000000000, 6000000000, 330892857, 197187500, 2657366071,
   2844553571, 4342053571, 6000000000, 6000000000, 6000000000, 143705357, 758750000, 464598214,
   544821429, 411116071, 544821429, 330892857, 330892857, 678526786, 705267857, 1614464286,
   785491071, 2550401786, 2898035714, 4636205357, 6000000000, 6000000000, 6000000000, 116964286,
   678526786, 411116071, 544821429, 491339286, 678526786, 223928571, 330892857, 651785714,
   705267857, 1614464286, 838973214, 2470178571, 2470178571, 4475758929, 6000000000, 6000000000,
   6000000000, 90223214, 945937500, 357633929, 6000000000, 304151786, 304151786, 304151786,
   304151786, 437857143, 384375000, 330892857, 330892857, 330892857, 330892857, 330892857,
   330892857, 357633929, 705267857, 678526786, 304151786, 277410714, 357633929, 945937500,
   1079642857, 3727008929, 1240089286, 2309732143, 2229508929, 3807232143, 6000000000, 6000000000,
   6000000000, 651785714, 2363214286, 598303571, 1159866071, 1454017857, 544821429, 1026160714,
   491339286, 1159866071, 651785714, 1373794643, 892455357, 464598214, 1320312500, 2149285714,
   1935357143, 732008929, 6000000000, 6000000000, 6000000000, 6000000000, 6000000000, 6000000000,
   6000000000, 6000000000, 6000000000, 6000000000, 6000000000, 6000000000, 6000000000, 6000000000,
   6000000000]
/-- `data/wfpair.py:40-3730 _wfpair`, row 19 -/
def wfpair19 : List Nat := [0, 330892857, 705267857, 116964286, 223928571, 143705357, 170446429,
   197187500, 223928571, 384375000, 678526786, 170446429, 90223214, 90223214, 90223214, 90223214,
   116964286, 116964286, 143705357, 36741071, 63482143, 90223214, 90223214, 90223214, 90223214,
   143705357, 143705357, 116964286, 90223214, 90223214, 90223214, 63482143, 90223214, 90223214,
   90223214, 90223214, 116964286, 36741071, 63482143, 63482143, 116964286, 90223214, 90223214,
   143705357, 116964286, 90223214, 90223214, 90223214, 90223214, 63482143, 90223214, 63482143,
   63482143, 90223214, 90223214, 36741071, 36741071, 63482143, 63482143, 63482143, 90223214,
   90223214, 90223214, 63482143, 63482143, 90223214, 63482143, 90223214, 90223214, 90223214,
   90223214, 90223214, 90223214, 90223214, 63482143, 90223214, 90223214, 90223214, 90223214,
   90223214, 90223214, 63482143, 63482143, 63482143, 63482143, 63482143, 90223214, 36741071,
   36741071, 36741071, 63482143, 63482143, 63482143, 63482143, 63482143, 63482143, 63482143,
   63482143, 63482143, 63482143, 63482143, 63482143, 63482143, 36741071, 6000000000, 6000000000,
   6000000000, 6000000000, 6000000000, 6000000000, 6000000000, 6000000000, 6000000000, 6000000000,
   6000000000, 6000000000, 6000000000, 6000000000, 6000000000]
/-- `data/wfpair.py:40-3730 _wfpair`, row 20 -/
def wfpair20 : List Nat := [0, 945937500, 3005000000, 223928571, 250669643, 437857143, 1026160714,
   1079642857, 1373794643, 1774910714, 2550401786, 197187500, 116964286, 277410714, 357633929,
   491339286, 571562500, 651785714, 758750000, 63482143, 170446429, 143705357, 143705357,
   116964286, 223928571, 197187500, 223928571, 223928571, 223928571, 330892857, 277410714,
   304151786, 357633929, 437857143, 491339286, 544821429, 598303571, 36741071, 143705357,
   143705357, 143705357, 143705357, 223928571, 116964286, 197187500, 197187500, 250669643,
   330892857, 277410714, 250669643, 304151786, 357633929, 411116071, 437857143, 464598214,
   36741071, 143705357, 116964286, 384375000, 90223214, 90223214, 116964286, 116964286, 116964286,
   143705357, 116964286, 116964286, 116964286, 116964286, 116964286, 116964286, 143705357,
   143705357, 170446429, 170446429, 143705357, 223928571, 250669643, 357633929, 411116071,
   330892857, 250669643, 277410714, 330892857, 357633929, 411116071, 411116071, 116964286,
   143705357, 143705357, 143705357, 116964286, 170446429, 143705357, 143705357, 197187500,
   170446429, 116964286, 170446429, 143705357, 116964286, 143705357, 170446429, 170446429,
   6000000000, 6000000000, 6000000000, 6000000000, 6000000000, 6000000000, 6000000000, 6000000000,
   6000000000, 6000000000, 6000000000, 6000000000, 6000000000, 6000000000, 6000000000]
/-- `data/wfpair.py:40-3730 _wfpair`, row 21 -/
def wfpair21 : List Nat := [0, 732008929, 1213348214, 170446429, 250669643, 330892857, 518080357,
   625044643, 678526786, 785491071, 919196429, 170446429, 143705357, 223928571, 250669643,
   304151786, 357633929, 411116071, 464598214, 90223214, 143705357, 143705357, 143705357,
   116964286, 197187500, 170446429, 197187500, 197187500, 197187500, 250669643, 223928571,
   223928571, 250669643, 277410714, 304151786, 330892857, 384375000, 90223214, 116964286,
   143705357, 143705357, 143705357, 170446429, 170446429, 197187500, 170446429, 197187500,
   223928571, 223928571, 197187500, 223928571, 250669643, 250669643, 277410714, 304151786,
   63482143, 143705357, 116964286, 250669643, 90223214, 90223214, 116964286, 116964286, 116964286,
   116964286, 116964286, 116964286, 116964286, 116964286, 116964286, 116964286, 143705357,
   143705357, 170446429, 197187500, 197187500, 197187500, 197187500, 250669643, 277410714,
   250669643, 197187500, 197187500, 223928571, 223928571, 250669643, 277410714, 90223214,
   116964286, 143705357, 116964286, 116964286, 170446429, 143705357, 143705357, 170446429,
   170446429, 116964286, 170446429, 143705357, 143705357, 143705357, 143705357, 170446429,
   6000000000, 6000000000, 6000000000, 6000000000, 6000000000, 6000000000, 6000000000, 6000000000,
   6000000000, 6000000000, 6000000000, 6000000000, 6000000000, 6000000000, 6000000000]
/-- `data/wfpair.py:40-3730 _wfpair`, row 22 -/
def wfpair22 : List Nat := [0, 812232143, 1320312500, 143705357, 277410714, 384375000, 625044643,
   705267857, 785491071, 892455357, 1026160714, 143705357, 143705357, 223928571, 277410714,
   357633929, 411116071, 464598214, 544821429, 90223214, 143705357, 143705357, 143705357,
   143705357, 197187500, 170446429, 223928571, 197187500, 197187500, 250669643, 223928571,
   223928571, 277410714, 330892857, 357633929, 384375000, 437857143, 90223214, 116964286,
   143705357, 116964286, 143705357, 170446429, 170446429, 197187500, 170446429, 197187500,
   250669643, 223928571, 197187500, 223928571, 250669643, 277410714, 304151786, 330892857,
   63482143, 143705357, 143705357, 277410714, 90223214, 90223214, 90223214, 90223214, 116964286,
   116964286, 116964286, 116964286, 116964286, 116964286, 116964286, 116964286, 116964286,
   143705357, 170446429, 197187500, 197187500, 197187500, 197187500, 277410714, 304151786,
   277410714, 197187500, 223928571, 223928571, 250669643, 277410714, 304151786, 90223214,
   116964286, 143705357, 116964286, 116964286, 143705357, 143705357, 143705357, 170446429,
   170446429, 116964286, 170446429, 170446429, 143705357, 143705357, 170446429, 197187500,
   6000000000, 6000000000, 6000000000, 6000000000, 6000000000, 6000000000, 6000000000, 6000000000,
   6000000000, 6000000000, 6000000000, 6000000000, 6000000000, 6000000000, 6000000000]
/-- `data/wfpair.py:40-3730 _wfpair`, row 23 -/
def wfpair23 : List Nat := [0, 785491071, 1347053571, 143705357, 223928571, 304151786, 491339286,
   625044643, 705267857, 838973214, 999419643, 143705357, 143705357, 170446429, 223928571,
   250669643, 304151786, 357633929, 411116071, 90223214, 116964286, 116964286, 143705357,
   116964286, 170446429, 170446429, 197187500, 170446429, 170446429, 197187500, 197187500,
   197187500, 197187500, 250669643, 250669643, 304151786, 330892857, 90223214, 116964286,
   116964286, 116964286, 143705357, 170446429, 143705357, 170446429, 170446429, 170446429,
   197187500, 197187500, 170446429, 170446429, 197187500, 223928571, 223928571, 250669643,
   63482143, 116964286, 116964286, 197187500, 90223214, 90223214, 116964286, 116964286, 116964286,
   116964286, 116964286, 116964286, 116964286, 116964286, 116964286, 116964286, 116964286,
   143705357, 143705357, 170446429, 170446429, 170446429, 170446429, 223928571, 223928571,
   223928571, 170446429, 170446429, 197187500, 197187500, 197187500, 223928571, 90223214, 90223214,
   116964286, 116964286, 116964286, 170446429, 116964286, 116964286, 143705357, 143705357,
   116964286, 170446429, 143705357, 116964286, 116964286, 143705357, 143705357, 6000000000,
   6000000000, 6000000000, 6000000000, 6000000000, 6000000000, 6000000000, 6000000000, 6000000000,
   6000000000, 6000000000, 6000000000, 6000000000, 6000000000, 6000000000]
/-- `data/wfpair.py:40-3730 _wfpair`, row 24 -/
def wfpair24 : List Nat := [0, 919196429, 1266830357, 277410714, 277410714, 544821429, 651785714,
   678526786, 758750000, 919196429, 1079642857, 250669643, 116964286, 357633929, 411116071,
   411116071, 437857143, 491339286, 544821429, 90223214, 223928571, 197187500, 197187500,
   170446429, 304151786, 223928571, 223928571, 277410714, 304151786, 384375000, 330892857,
   357633929, 411116071, 384375000, 411116071, 437857143, 464598214, 63482143, 197187500,
   197187500, 197187500, 197187500, 277410714, 143705357, 223928571, 250669643, 304151786,
   384375000, 330892857, 330892857, 357633929, 357633929, 357633929, 357633929, 384375000,
   63482143, 223928571, 170446429, 330892857, 116964286, 116964286, 143705357, 143705357,
   170446429, 170446429, 143705357, 143705357, 143705357, 143705357, 143705357, 143705357,
   170446429, 223928571, 250669643, 197187500, 170446429, 250669643, 304151786, 384375000,
   384375000, 384375000, 330892857, 357633929, 330892857, 330892857, 357633929, 357633929,
   170446429, 197187500, 223928571, 197187500, 170446429, 223928571, 197187500, 197187500,
   277410714, 250669643, 170446429, 250669643, 197187500, 170446429, 197187500, 223928571,
   250669643, 6000000000, 6000000000, 6000000000, 6000000000, 6000000000, 6000000000, 6000000000,
   6000000000, 6000000000, 6000000000, 6000000000, 6000000000, 6000000000, 6000000000, 6000000000]
/-- `data/wfpair.py:40-3730 _wfpair`, row 25 -/
def wfpair25 : List Nat := [0, 544821429, 732008929, 277410714, 223928571, 357633929, 384375000,
   411116071, 437857143, 518080357, 598303571, 250669643, 143705357, 223928571, 250669643,
   250669643, 250669643, 277410714, 330892857, 143705357, 197187500, 170446429, 170446429,
   170446429, 223928571, 170446429, 197187500, 250669643, 250669643, 223928571, 250669643,
   223928571, 223928571, 223928571, 223928571, 250669643, 277410714, 116964286, 170446429,
   197187500, 197187500, 197187500, 223928571, 143705357, 170446429, 223928571, 250669643,
   223928571, 223928571, 197187500, 197187500, 197187500, 197187500, 197187500, 223928571,
   90223214, 143705357, 170446429, 197187500, 116964286, 143705357, 143705357, 143705357,
   170446429, 170446429, 143705357, 143705357, 143705357, 143705357, 143705357, 143705357,
   170446429, 197187500, 223928571, 197187500, 143705357, 170446429, 223928571, 223928571,
   223928571, 223928571, 197187500, 197187500, 197187500, 197187500, 197187500, 197187500,
   143705357, 143705357, 116964286, 170446429, 170446429, 197187500, 170446429, 170446429,
   143705357, 143705357, 170446429, 170446429, 143705357, 170446429, 170446429, 143705357,
   143705357, 6000000000, 6000000000, 6000000000, 6000000000, 6000000000, 6000000000, 6000000000,
   6000000000, 6000000000, 6000000000, 6000000000, 6000000000, 6000000000, 6000000000, 6000000000]
/-- `data/wfpair.py:40-3730 _wfpair`, row 26 -/
def wfpair26 : List Nat := [0, 571562500, 732008929, 304151786, 250669643, 357633929, 384375000,
   411116071, 437857143, 518080357, 571562500, 250669643, 143705357, 250669643, 250669643,
   250669643, 277410714, 304151786, 330892857, 143705357, 223928571, 197187500, 223928571,
   197187500, 223928571, 197187500, 197187500, 277410714, 277410714, 250669643, 277410714,
   223928571, 250669643, 250669643, 250669643, 277410714, 277410714, 116964286, 197187500,
   223928571, 223928571, 223928571, 250669643, 143705357, 197187500, 223928571, 250669643,
   223928571, 250669643, 223928571, 223928571, 223928571, 223928571, 223928571, 250669643,
   90223214, 170446429, 197187500, 223928571, 143705357, 143705357, 143705357, 143705357,
   197187500, 197187500, 170446429, 170446429, 170446429, 170446429, 170446429, 170446429,
   197187500, 250669643, 250669643, 197187500, 197187500, 197187500, 223928571, 223928571,
   223928571, 250669643, 223928571, 223928571, 197187500, 197187500, 223928571, 223928571,
   170446429, 170446429, 143705357, 197187500, 197187500, 197187500, 197187500, 197187500,
   170446429, 170446429, 197187500, 197187500, 170446429, 170446429, 197187500, 170446429,
   170446429, 6000000000, 6000000000, 6000000000, 6000000000, 6000000000, 6000000000, 6000000000,
   6000000000, 6000000000, 6000000000, 6000000000, 6000000000, 6000000000, 6000000000, 6000000000]
/-- `data/wfpair.py:40-3730 _wfpair`, row 27 -/
def wfpair27 : List Nat := [0, 1079642857, 1774910714, 277410714, 330892857, 491339286, 812232143,
   919196429, 999419643, 1159866071, 1347053571, 250669643, 143705357, 304151786, 384375000,
   464598214, 544821429, 598303571, 678526786, 116964286, 223928571, 197187500, 197187500,
   170446429, 277410714, 250669643, 277410714, 277410714, 277410714, 357633929, 330892857,
   330892857, 384375000, 437857143, 464598214, 518080357, 544821429, 90223214, 197187500,
   197187500, 197187500, 197187500, 250669643, 170446429, 277410714, 250669643, 277410714,
   357633929, 304151786, 304151786, 330892857, 357633929, 384375000, 411116071, 437857143,
   63482143, 197187500, 170446429, 384375000, 143705357, 143705357, 143705357, 143705357,
   170446429, 170446429, 170446429, 170446429, 170446429, 170446429, 170446429, 170446429,
   170446429, 223928571, 223928571, 250669643, 223928571, 304151786, 304151786, 357633929,
   411116071, 357633929, 304151786, 304151786, 330892857, 357633929, 384375000, 411116071,
   170446429, 170446429, 197187500, 170446429, 170446429, 223928571, 197187500, 197187500,
   277410714, 223928571, 170446429, 250669643, 197187500, 170446429, 197187500, 223928571,
   250669643, 6000000000, 6000000000, 6000000000, 6000000000, 6000000000, 6000000000, 6000000000,
   6000000000, 6000000000, 6000000000, 6000000000, 6000000000, 6000000000, 6000000000, 6000000000]
/-- `data/wfpair.py:40-3730 _wfpair`, row 28 -/
def wfpair28 : List Nat := [0, 1079642857, 1721428571, 277410714, 330892857, 518080357, 812232143,
   919196429, 999419643, 1159866071, 1320312500, 250669643, 143705357, 330892857, 437857143,
   518080357, 571562500, 625044643, 705267857, 90223214, 223928571, 197187500, 197187500,
   170446429, 304151786, 250669643, 277410714, 277410714, 304151786, 411116071, 330892857,
   384375000, 411116071, 464598214, 518080357, 544821429, 598303571, 90223214, 223928571,
   223928571, 197187500, 197187500, 277410714, 170446429, 250669643, 250669643, 304151786,
   384375000, 330892857, 330892857, 357633929, 411116071, 437857143, 464598214, 491339286,
   63482143, 223928571, 197187500, 411116071, 143705357, 143705357, 143705357, 143705357,
   170446429, 170446429, 143705357, 170446429, 143705357, 143705357, 170446429, 170446429,
   170446429, 223928571, 250669643, 223928571, 223928571, 277410714, 304151786, 411116071,
   437857143, 411116071, 330892857, 330892857, 384375000, 411116071, 411116071, 437857143,
   170446429, 197187500, 223928571, 197187500, 170446429, 223928571, 197187500, 223928571,
   277410714, 250669643, 170446429, 277410714, 223928571, 197187500, 197187500, 223928571,
   277410714, 6000000000, 6000000000, 6000000000, 6000000000, 6000000000, 6000000000, 6000000000,
   6000000000, 6000000000, 6000000000, 6000000000, 6000000000, 6000000000, 6000000000, 6000000000]
/-- `data/wfpair.py:40-3730 _wfpair`, row 29 -/
def wfpair29 : List Nat := [0, 1667946429, 4074642857, 411116071, 304151786, 972678571, 1560982143,
   1908616071, 2256250000, 2630625000, 3058482143, 223928571, 116964286, 571562500, 812232143,
   1106383929, 1293571429, 1480758929, 1614464286, 90223214, 330892857, 250669643, 250669643,
   197187500, 384375000, 223928571, 250669643, 357633929, 411116071, 678526786, 464598214,
   651785714, 812232143, 1026160714, 1159866071, 1293571429, 1320312500, 63482143, 304151786,
   250669643, 277410714, 277410714, 384375000, 170446429, 250669643, 357633929, 411116071,
   678526786, 464598214, 571562500, 705267857, 838973214, 945937500, 1026160714, 1079642857,
   63482143, 304151786, 223928571, 892455357, 170446429, 170446429, 170446429, 170446429,
   223928571, 223928571, 197187500, 197187500, 197187500, 197187500, 197187500, 197187500,
   223928571, 357633929, 357633929, 197187500, 197187500, 250669643, 464598214, 732008929,
   892455357, 2069062500, 571562500, 598303571, 758750000, 865714286, 945937500, 972678571,
   250669643, 277410714, 277410714, 250669643, 223928571, 304151786, 250669643, 250669643,
   464598214, 304151786, 223928571, 357633929, 250669643, 223928571, 250669643, 277410714,
   330892857, 6000000000, 6000000000, 6000000000, 6000000000, 6000000000, 6000000000, 6000000000,
   6000000000, 6000000000, 6000000000, 6000000000, 6000000000, 6000000000, 6000000000, 6000000000]
/-- `data/wfpair.py:40-3730 _wfpair`, row 30 -/
def wfpair30 : List Nat := [0, 1293571429, 1881875000, 330892857, 330892857, 598303571, 892455357,
   999419643, 1079642857, 1240089286, 1427276786, 277410714, 143705357, 384375000, 491339286,
   571562500, 625044643, 705267857, 785491071, 90223214, 277410714, 223928571, 223928571,
   197187500, 330892857, 250669643, 277410714, 330892857, 330892857, 464598214, 384375000,
   437857143, 464598214, 518080357, 571562500, 598303571, 651785714, 90223214, 250669643,
   250669643, 223928571, 250669643, 304151786, 170446429, 277410714, 304151786, 330892857,
   437857143, 384375000, 357633929, 411116071, 464598214, 491339286, 518080357, 544821429,
   63482143, 250669643, 223928571, 464598214, 170446429, 170446429, 170446429, 170446429,
   223928571, 197187500, 170446429, 197187500, 170446429, 170446429, 170446429, 197187500,
   197187500, 277410714, 277410714, 223928571, 223928571, 277410714, 357633929, 464598214,
   491339286, 437857143, 357633929, 384375000, 437857143, 437857143, 464598214, 491339286,
   197187500, 223928571, 250669643, 223928571, 197187500, 277410714, 223928571, 250669643,
   330892857, 277410714, 197187500, 304151786, 250669643, 223928571, 250669643, 250669643,
   304151786, 6000000000, 6000000000, 6000000000, 6000000000, 6000000000, 6000000000, 6000000000,
   6000000000, 6000000000, 6000000000, 6000000000, 6000000000, 6000000000, 6000000000, 6000000000]
/-- `data/wfpair.py:40-3730 _wfpair`, row 31 -/
def wfpair31 : List Nat := [0, 1694687500, 5277991071, 384375000, 277410714, 1052901786,
   1507500000, 2256250000, 3218928571, 3780491071, 4181607143, 197187500, 116964286, 1801651786,
   1801651786, 2015580357, 2122544643, 2309732143, 2550401786, 63482143, 304151786, 223928571,
   223928571, 197187500, 357633929, 223928571, 223928571, 330892857, 384375000, 651785714,
   437857143, 1694687500, 1828392857, 1855133929, 1962098214, 2042321429, 2229508929, 63482143,
   277410714, 223928571, 250669643, 250669643, 357633929, 143705357, 223928571, 304151786,
   384375000, 651785714, 437857143, 1560982143, 758750000, 1774910714, 1801651786, 1801651786,
   1962098214, 63482143, 277410714, 197187500, 1801651786, 170446429, 170446429, 170446429,
   170446429, 223928571, 197187500, 170446429, 197187500, 170446429, 170446429, 170446429,
   197187500, 197187500, 330892857, 304151786, 197187500, 170446429, 250669643, 411116071,
   705267857, 1801651786, 625044643, 544821429, 571562500, 1774910714, 1721428571, 1748169643,
   1881875000, 250669643, 250669643, 250669643, 223928571, 197187500, 304151786, 1855133929,
   223928571, 437857143, 277410714, 197187500, 330892857, 223928571, 197187500, 223928571,
   1908616071, 304151786, 6000000000, 6000000000, 6000000000, 6000000000, 6000000000, 6000000000,
   6000000000, 6000000000, 6000000000, 6000000000, 6000000000, 6000000000, 6000000000, 6000000000,
   6000000000]
/-- `data/wfpair.py:40-3730 _wfpair`, row 32 -/
def wfpair32 : List Nat := [0, 1828392857, 6000000000, 437857143, 304151786, 1320312500,
   1480758929, 2282991071, 3940937500, 4368794643, 5652366071, 223928571, 116964286, 945937500,
   1186607143, 1962098214, 2657366071, 3085223214, 2898035714, 90223214, 357633929, 250669643,
   277410714, 197187500, 411116071, 223928571, 250669643, 384375000, 411116071, 812232143,
   464598214, 1828392857, 1320312500, 1988839286, 2577142857, 2764330357, 2416696429, 63482143,
   330892857, 250669643, 277410714, 277410714, 411116071, 170446429, 250669643, 357633929,
   411116071, 812232143, 491339286, 1855133929, 1026160714, 1560982143, 1908616071, 2363214286,
   1988839286, 63482143, 304151786, 223928571, 1774910714, 170446429, 170446429, 170446429,
   197187500, 250669643, 223928571, 197187500, 197187500, 197187500, 197187500, 197187500,
   197187500, 223928571, 384375000, 357633929, 223928571, 197187500, 277410714, 491339286,
   785491071, 1427276786, 732008929, 1694687500, 838973214, 1373794643, 1801651786, 2256250000,
   1855133929, 277410714, 304151786, 277410714, 892455357, 865714286, 330892857, 277410714,
   250669643, 625044643, 330892857, 223928571, 411116071, 250669643, 223928571, 250669643,
   277410714, 357633929, 6000000000, 6000000000, 6000000000, 6000000000, 6000000000, 6000000000,
   6000000000, 6000000000, 6000000000, 6000000000, 6000000000, 6000000000, 6000000000, 6000000000,
   6000000000]
/-- `data/wfpair.py:40-3730 _wfpair`, row 33 -/
def wfpair33 : List Nat := [0, 2069062500, 6000000000, 464598214, 277410714, 1721428571,
   1614464286, 2496919643, 6000000000, 6000000000, 6000000000, 223928571, 116964286, 2069062500,
   1962098214, 2630625000, 3860714286, 4208348214, 4636205357, 90223214, 437857143, 277410714,
   330892857, 250669643, 384375000, 223928571, 250669643, 437857143, 464598214, 1026160714,
   518080357, 1855133929, 1988839286, 2684107143, 3486339286, 3700267857, 3994419643, 63482143,
   384375000, 277410714, 330892857, 304151786, 464598214, 170446429, 223928571, 411116071,
   464598214, 1052901786, 571562500, 1828392857, 1641205357, 2523660714, 3111964286, 3218928571,
   3406116071, 63482143, 384375000, 250669643, 3085223214, 197187500, 197187500, 197187500,
   197187500, 277410714, 250669643, 223928571, 223928571, 223928571, 223928571, 223928571,
   223928571, 250669643, 464598214, 437857143, 223928571, 197187500, 250669643, 598303571,
   758750000, 2389955357, 838973214, 1667946429, 1507500000, 2496919643, 2951517857, 3031741071,
   3192187500, 357633929, 2176026786, 330892857, 919196429, 945937500, 384375000, 411116071,
   304151786, 838973214, 384375000, 999419643, 464598214, 277410714, 277410714, 1935357143,
   357633929, 411116071, 6000000000, 6000000000, 6000000000, 6000000000, 6000000000, 6000000000,
   6000000000, 6000000000, 6000000000, 6000000000, 6000000000, 6000000000, 6000000000, 6000000000,
   6000000000]
/-- `data/wfpair.py:40-3730 _wfpair`, row 34 -/
def wfpair34 : List Nat := [0, 2229508929, 6000000000, 437857143, 304151786, 1988839286,
   1694687500, 2710848214, 6000000000, 6000000000, 6000000000, 223928571, 116964286, 2176026786,
   2389955357, 3218928571, 6000000000, 6000000000, 6000000000, 90223214, 491339286, 304151786,
   357633929, 250669643, 411116071, 223928571, 250669643, 464598214, 518080357, 1159866071,
   571562500, 1962098214, 2577142857, 3486339286, 6000000000, 6000000000, 6000000000, 90223214,
   464598214, 304151786, 357633929, 330892857, 491339286, 170446429, 250669643, 437857143,
   518080357, 1213348214, 598303571, 1935357143, 2176026786, 3325892857, 6000000000, 6000000000,
   6000000000, 63482143, 491339286, 250669643, 6000000000, 197187500, 223928571, 223928571,
   223928571, 304151786, 277410714, 223928571, 250669643, 223928571, 223928571, 223928571,
   250669643, 250669643, 544821429, 464598214, 223928571, 197187500, 250669643, 625044643,
   758750000, 3833973214, 892455357, 1774910714, 1881875000, 3379375000, 6000000000, 6000000000,
   6000000000, 411116071, 464598214, 384375000, 892455357, 892455357, 411116071, 571562500,
   330892857, 919196429, 411116071, 1026160714, 491339286, 304151786, 330892857, 1881875000,
   1694687500, 464598214, 6000000000, 6000000000, 6000000000, 6000000000, 6000000000, 6000000000,
   6000000000, 6000000000, 6000000000, 6000000000, 6000000000, 6000000000, 6000000000, 6000000000,
   6000000000]
/-- `data/wfpair.py:40-3730 _wfpair`, row 35 -/
def wfpair35 : List Nat := [0, 2416696429, 6000000000, 491339286, 330892857, 2202767857,
   1855133929, 3058482143, 6000000000, 6000000000, 6000000000, 250669643, 143705357, 2256250000,
   2523660714, 3432857143, 6000000000, 6000000000, 6000000000, 90223214, 544821429, 330892857,
   384375000, 304151786, 437857143, 250669643, 277410714, 518080357, 544821429, 1293571429,
   598303571, 2042321429, 2764330357, 3700267857, 6000000000, 6000000000, 6000000000, 90223214,
   491339286, 330892857, 384375000, 384375000, 518080357, 170446429, 250669643, 491339286,
   544821429, 1320312500, 651785714, 1988839286, 2577142857, 3539821429, 6000000000, 6000000000,
   6000000000, 63482143, 598303571, 277410714, 6000000000, 223928571, 223928571, 223928571,
   223928571, 330892857, 277410714, 250669643, 250669643, 250669643, 250669643, 250669643,
   250669643, 277410714, 571562500, 518080357, 223928571, 223928571, 277410714, 705267857,
   838973214, 5572142857, 972678571, 1855133929, 2149285714, 3620044643, 6000000000, 6000000000,
   6000000000, 464598214, 518080357, 411116071, 945937500, 999419643, 464598214, 678526786,
   357633929, 999419643, 464598214, 999419643, 544821429, 330892857, 384375000, 1828392857,
   1694687500, 518080357, 6000000000, 6000000000, 6000000000, 6000000000, 6000000000, 6000000000,
   6000000000, 6000000000, 6000000000, 6000000000, 6000000000, 6000000000, 6000000000, 6000000000,
   6000000000]
/-- `data/wfpair.py:40-3730 _wfpair`, row 36 -/
def wfpair36 : List Nat := [0, 2523660714, 6000000000, 571562500, 357633929, 2176026786,
   1935357143, 3031741071, 6000000000, 6000000000, 6000000000, 277410714, 143705357, 2389955357,
   2309732143, 3727008929, 6000000000, 6000000000, 6000000000, 116964286, 598303571, 384375000,
   437857143, 330892857, 464598214, 277410714, 277410714, 544821429, 598303571, 1320312500,
   651785714, 2229508929, 2416696429, 3994419643, 6000000000, 6000000000, 6000000000, 90223214,
   544821429, 357633929, 437857143, 411116071, 571562500, 197187500, 277410714, 544821429,
   598303571, 1347053571, 705267857, 2176026786, 2095803571, 3833973214, 6000000000, 6000000000,
   6000000000, 90223214, 838973214, 304151786, 6000000000, 250669643, 250669643, 250669643,
   250669643, 357633929, 304151786, 277410714, 277410714, 277410714, 277410714, 277410714,
   277410714, 304151786, 598303571, 544821429, 250669643, 223928571, 304151786, 758750000,
   892455357, 3058482143, 1052901786, 2015580357, 1908616071, 3192187500, 6000000000, 6000000000,
   6000000000, 518080357, 2282991071, 464598214, 1026160714, 1240089286, 464598214, 838973214,
   384375000, 999419643, 518080357, 1159866071, 651785714, 384375000, 598303571, 2069062500,
   1855133929, 571562500, 6000000000, 6000000000, 6000000000, 6000000000, 6000000000, 6000000000,
   6000000000, 6000000000, 6000000000, 6000000000, 6000000000, 6000000000, 6000000000, 6000000000,
   6000000000]
/-- `data/wfpair.py:40-3730 _wfpair`, row 37 -/
def wfpair37 : List Nat := [0, 250669643, 464598214, 90223214, 170446429, 116964286, 143705357,
   143705357, 197187500, 250669643, 357633929, 143705357, 63482143, 63482143, 63482143, 90223214,
   90223214, 90223214, 116964286, 36741071, 36741071, 90223214, 90223214, 90223214, 63482143,
   116964286, 116964286, 90223214, 90223214, 63482143, 90223214, 63482143, 63482143, 63482143,
   90223214, 90223214, 90223214, 36741071, 36741071, 63482143, 90223214, 63482143, 63482143,
   116964286, 90223214, 63482143, 90223214, 63482143, 63482143, 63482143, 63482143, 63482143,
   63482143, 63482143, 63482143, 36741071, 36741071, 36741071, 63482143, 63482143, 63482143,
   63482143, 63482143, 63482143, 63482143, 63482143, 63482143, 63482143, 63482143, 63482143,
   63482143, 63482143, 90223214, 63482143, 63482143, 90223214, 90223214, 63482143, 63482143,
   63482143, 63482143, 63482143, 63482143, 63482143, 63482143, 63482143, 63482143, 36741071,
   36741071, 36741071, 36741071, 63482143, 63482143, 63482143, 63482143, 36741071, 36741071,
   63482143, 36741071, 36741071, 36741071, 36741071, 36741071, 36741071, 6000000000, 6000000000,
   6000000000, 6000000000, 6000000000, 6000000000, 6000000000, 6000000000, 6000000000, 6000000000,
   6000000000, 6000000000, 6000000000, 6000000000, 6000000000]
/-- `data/wfpair.py:40-3730 _wfpair`, row 38 -/
def wfpair38 : List Nat := [0, 865714286, 2764330357, 170446429, 223928571, 411116071, 865714286,
   919196429, 1052901786, 1293571429, 2149285714, 197187500, 90223214, 250669643, 330892857,
   437857143, 518080357, 598303571, 678526786, 63482143, 143705357, 116964286, 116964286,
   116964286, 197187500, 170446429, 197187500, 197187500, 223928571, 304151786, 250669643,
   277410714, 330892857, 384375000, 464598214, 491339286, 544821429, 36741071, 143705357,
   143705357, 116964286, 143705357, 197187500, 116964286, 197187500, 170446429, 223928571,
   304151786, 250669643, 223928571, 277410714, 330892857, 357633929, 384375000, 411116071,
   36741071, 143705357, 116964286, 357633929, 90223214, 90223214, 90223214, 90223214, 116964286,
   116964286, 90223214, 116964286, 90223214, 116964286, 116964286, 116964286, 116964286, 143705357,
   170446429, 170446429, 143705357, 197187500, 223928571, 330892857, 357633929, 304151786,
   223928571, 250669643, 304151786, 330892857, 357633929, 384375000, 116964286, 116964286,
   143705357, 116964286, 116964286, 143705357, 116964286, 143705357, 170446429, 170446429,
   116964286, 170446429, 143705357, 116964286, 116964286, 143705357, 170446429, 6000000000,
   6000000000, 6000000000, 6000000000, 6000000000, 6000000000, 6000000000, 6000000000, 6000000000,
   6000000000, 6000000000, 6000000000, 6000000000, 6000000000, 6000000000]
/-- `data/wfpair.py:40-3730 _wfpair`, row 39 -/
def wfpair39 : List Nat := [0, 598303571, 1026160714, 197187500, 250669643, 330892857, 464598214,
   518080357, 571562500, 651785714, 758750000, 170446429, 90223214, 223928571, 250669643,
   304151786, 330892857, 384375000, 411116071, 63482143, 143705357, 143705357, 143705357,
   116964286, 197187500, 197187500, 223928571, 197187500, 223928571, 250669643, 250669643,
   223928571, 250669643, 277410714, 304151786, 330892857, 357633929, 63482143, 143705357,
   116964286, 143705357, 143705357, 197187500, 143705357, 197187500, 197187500, 223928571,
   223928571, 223928571, 197187500, 223928571, 223928571, 250669643, 277410714, 277410714,
   36741071, 116964286, 116964286, 250669643, 116964286, 116964286, 143705357, 143705357,
   143705357, 170446429, 143705357, 143705357, 143705357, 143705357, 143705357, 143705357,
   170446429, 170446429, 170446429, 170446429, 170446429, 223928571, 197187500, 250669643,
   250669643, 250669643, 197187500, 197187500, 223928571, 223928571, 250669643, 250669643,
   116964286, 116964286, 116964286, 116964286, 116964286, 223928571, 116964286, 116964286,
   197187500, 143705357, 116964286, 250669643, 116964286, 116964286, 116964286, 143705357,
   143705357, 6000000000, 6000000000, 6000000000, 6000000000, 6000000000, 6000000000, 6000000000,
   6000000000, 6000000000, 6000000000, 6000000000, 6000000000, 6000000000, 6000000000, 6000000000]
/-- `data/wfpair.py:40-3730 _wfpair`, row 40 -/
def wfpair40 : List Nat := [0, 812232143, 1320312500, 170446429, 277410714, 384375000, 625044643,
   705267857, 758750000, 892455357, 1026160714, 170446429, 143705357, 223928571, 277410714,
   357633929, 411116071, 464598214, 544821429, 116964286, 143705357, 143705357, 116964286,
   116964286, 197187500, 197187500, 223928571, 197187500, 197187500, 277410714, 223928571,
   250669643, 277410714, 330892857, 357633929, 384375000, 437857143, 90223214, 116964286,
   143705357, 116964286, 143705357, 170446429, 170446429, 197187500, 170446429, 197187500,
   250669643, 223928571, 197187500, 223928571, 250669643, 277410714, 304151786, 330892857,
   63482143, 143705357, 143705357, 277410714, 90223214, 90223214, 90223214, 90223214, 116964286,
   116964286, 116964286, 116964286, 116964286, 116964286, 116964286, 116964286, 116964286,
   143705357, 170446429, 197187500, 197187500, 197187500, 197187500, 277410714, 304151786,
   277410714, 197187500, 223928571, 250669643, 250669643, 277410714, 304151786, 90223214,
   116964286, 143705357, 116964286, 116964286, 170446429, 143705357, 143705357, 197187500,
   170446429, 116964286, 170446429, 143705357, 143705357, 143705357, 170446429, 197187500,
   6000000000, 6000000000, 6000000000, 6000000000, 6000000000, 6000000000, 6000000000, 6000000000,
   6000000000, 6000000000, 6000000000, 6000000000, 6000000000, 6000000000, 6000000000]
/-- `data/wfpair.py:40-3730 _wfpair`, row 41 -/
def wfpair41 : List Nat := [0, 785491071, 1320312500, 170446429, 277410714, 357633929, 571562500,
   651785714, 732008929, 838973214, 999419643, 170446429, 143705357, 223928571, 277410714,
   330892857, 384375000, 437857143, 491339286, 90223214, 143705357, 143705357, 143705357,
   143705357, 197187500, 197187500, 223928571, 197187500, 197187500, 277410714, 250669643,
   250669643, 277410714, 304151786, 330892857, 384375000, 411116071, 63482143, 143705357,
   143705357, 143705357, 143705357, 197187500, 170446429, 223928571, 197187500, 223928571,
   250669643, 223928571, 197187500, 223928571, 250669643, 277410714, 304151786, 330892857,
   63482143, 143705357, 143705357, 277410714, 90223214, 116964286, 116964286, 116964286, 116964286,
   143705357, 116964286, 116964286, 116964286, 116964286, 116964286, 116964286, 143705357,
   143705357, 170446429, 197187500, 197187500, 223928571, 223928571, 277410714, 304151786,
   277410714, 223928571, 223928571, 250669643, 250669643, 277410714, 304151786, 116964286,
   116964286, 143705357, 116964286, 116964286, 170446429, 143705357, 143705357, 197187500,
   170446429, 116964286, 197187500, 170446429, 143705357, 143705357, 170446429, 170446429,
   6000000000, 6000000000, 6000000000, 6000000000, 6000000000, 6000000000, 6000000000, 6000000000,
   6000000000, 6000000000, 6000000000, 6000000000, 6000000000, 6000000000, 6000000000]
/-- `data/wfpair.py:40-3730 _wfpair`, row 42 -/
def wfpair42 : List Nat := [0, 1106383929, 1587723214, 277410714, 277410714, 518080357, 785491071,
   865714286, 919196429, 1052901786, 1186607143, 223928571, 116964286, 330892857, 411116071,
   491339286, 544821429, 598303571, 678526786, 90223214, 223928571, 170446429, 170446429,
   170446429, 277410714, 223928571, 250669643, 250669643, 277410714, 384375000, 304151786,
   357633929, 411116071, 464598214, 491339286, 518080357, 571562500, 63482143, 197187500,
   197187500, 170446429, 197187500, 250669643, 143705357, 223928571, 250669643, 277410714,
   384375000, 304151786, 304151786, 357633929, 384375000, 411116071, 437857143, 464598214,
   63482143, 223928571, 170446429, 411116071, 116964286, 116964286, 116964286, 143705357,
   170446429, 170446429, 143705357, 143705357, 143705357, 143705357, 143705357, 143705357,
   170446429, 197187500, 223928571, 197187500, 197187500, 250669643, 304151786, 384375000,
   437857143, 384375000, 304151786, 330892857, 357633929, 384375000, 411116071, 437857143,
   170446429, 197187500, 223928571, 170446429, 170446429, 223928571, 170446429, 197187500,
   277410714, 250669643, 170446429, 250669643, 197187500, 170446429, 197187500, 197187500,
   250669643, 6000000000, 6000000000, 6000000000, 6000000000, 6000000000, 6000000000, 6000000000,
   6000000000, 6000000000, 6000000000, 6000000000, 6000000000, 6000000000, 6000000000, 6000000000]
/-- `data/wfpair.py:40-3730 _wfpair`, row 43 -/
def wfpair43 : List Nat := [0, 384375000, 491339286, 304151786, 170446429, 250669643, 250669643,
   277410714, 304151786, 357633929, 384375000, 197187500, 116964286, 170446429, 170446429,
   170446429, 197187500, 197187500, 223928571, 143705357, 116964286, 170446429, 170446429,
   143705357, 143705357, 143705357, 143705357, 170446429, 170446429, 170446429, 170446429,
   143705357, 170446429, 170446429, 170446429, 170446429, 197187500, 116964286, 116964286,
   143705357, 170446429, 170446429, 143705357, 90223214, 143705357, 143705357, 170446429,
   143705357, 170446429, 143705357, 143705357, 143705357, 143705357, 143705357, 170446429,
   90223214, 90223214, 116964286, 143705357, 116964286, 116964286, 116964286, 143705357, 143705357,
   143705357, 143705357, 143705357, 143705357, 143705357, 143705357, 143705357, 170446429,
   170446429, 170446429, 143705357, 116964286, 143705357, 143705357, 143705357, 143705357,
   170446429, 143705357, 143705357, 143705357, 143705357, 143705357, 143705357, 90223214, 90223214,
   90223214, 116964286, 116964286, 143705357, 116964286, 116964286, 116964286, 116964286,
   143705357, 116964286, 116964286, 116964286, 116964286, 116964286, 116964286, 6000000000,
   6000000000, 6000000000, 6000000000, 6000000000, 6000000000, 6000000000, 6000000000, 6000000000,
   6000000000, 6000000000, 6000000000, 6000000000, 6000000000, 6000000000]
/-- `data/wfpair.py:40-3730 _wfpair`, row 44 -/
def wfpair44 : List Nat := [0, 544821429, 705267857, 330892857, 223928571, 357633929, 384375000,
   384375000, 437857143, 491339286, 544821429, 223928571, 143705357, 250669643, 250669643,
   250669643, 277410714, 304151786, 330892857, 116964286, 197187500, 197187500, 197187500,
   170446429, 223928571, 170446429, 197187500, 277410714, 250669643, 250669643, 277410714,
   223928571, 250669643, 223928571, 250669643, 250669643, 277410714, 90223214, 197187500,
   197187500, 197187500, 223928571, 223928571, 143705357, 170446429, 223928571, 250669643,
   223928571, 223928571, 223928571, 223928571, 197187500, 223928571, 223928571, 223928571,
   63482143, 170446429, 197187500, 197187500, 143705357, 143705357, 143705357, 143705357,
   197187500, 197187500, 170446429, 170446429, 170446429, 170446429, 170446429, 170446429,
   170446429, 250669643, 250669643, 223928571, 143705357, 170446429, 223928571, 223928571,
   223928571, 223928571, 223928571, 197187500, 197187500, 197187500, 197187500, 223928571,
   170446429, 170446429, 143705357, 197187500, 170446429, 197187500, 197187500, 170446429,
   170446429, 170446429, 170446429, 170446429, 170446429, 170446429, 170446429, 170446429,
   170446429, 6000000000, 6000000000, 6000000000, 6000000000, 6000000000, 6000000000, 6000000000,
   6000000000, 6000000000, 6000000000, 6000000000, 6000000000, 6000000000, 6000000000, 6000000000]
/-- `data/wfpair.py:40-3730 _wfpair`, row 45 -/
def wfpair45 : List Nat := [0, 1106383929, 1694687500, 250669643, 277410714, 464598214, 758750000,
   865714286, 945937500, 1133125000, 1293571429, 223928571, 116964286, 304151786, 357633929,
   437857143, 518080357, 571562500, 651785714, 90223214, 197187500, 170446429, 170446429,
   170446429, 250669643, 223928571, 223928571, 250669643, 250669643, 357633929, 304151786,
   304151786, 357633929, 411116071, 437857143, 491339286, 544821429, 63482143, 170446429,
   197187500, 170446429, 197187500, 250669643, 143705357, 223928571, 223928571, 277410714,
   330892857, 304151786, 277410714, 304151786, 330892857, 357633929, 384375000, 411116071,
   63482143, 197187500, 170446429, 357633929, 143705357, 143705357, 143705357, 143705357,
   170446429, 170446429, 143705357, 143705357, 143705357, 143705357, 143705357, 143705357,
   170446429, 197187500, 223928571, 197187500, 197187500, 250669643, 277410714, 357633929,
   384375000, 357633929, 277410714, 277410714, 330892857, 330892857, 357633929, 384375000,
   143705357, 170446429, 197187500, 170446429, 143705357, 223928571, 170446429, 197187500,
   250669643, 223928571, 170446429, 250669643, 197187500, 170446429, 170446429, 197187500,
   223928571, 6000000000, 6000000000, 6000000000, 6000000000, 6000000000, 6000000000, 6000000000,
   6000000000, 6000000000, 6000000000, 6000000000, 6000000000, 6000000000, 6000000000, 6000000000]
/-- `data/wfpair.py:40-3730 _wfpair`, row 46 -/
def wfpair46 : List Nat := [0, 1133125000, 1507500000, 304151786, 304151786, 544821429, 812232143,
   892455357, 945937500, 1052901786, 1186607143, 250669643, 116964286, 357633929, 437857143,
   518080357, 571562500, 625044643, 705267857, 90223214, 250669643, 197187500, 197187500,
   170446429, 304151786, 250669643, 250669643, 277410714, 304151786, 411116071, 330892857,
   384375000, 411116071, 464598214, 518080357, 544821429, 598303571, 90223214, 223928571,
   223928571, 197187500, 223928571, 277410714, 170446429, 250669643, 277410714, 304151786,
   411116071, 330892857, 330892857, 357633929, 411116071, 437857143, 464598214, 491339286,
   63482143, 223928571, 197187500, 437857143, 143705357, 143705357, 143705357, 143705357,
   170446429, 170446429, 170446429, 170446429, 143705357, 143705357, 170446429, 170446429,
   170446429, 223928571, 250669643, 223928571, 197187500, 277410714, 304151786, 411116071,
   437857143, 411116071, 330892857, 357633929, 384375000, 411116071, 437857143, 437857143,
   197187500, 197187500, 223928571, 197187500, 170446429, 250669643, 197187500, 223928571,
   304151786, 250669643, 170446429, 277410714, 223928571, 197187500, 197187500, 223928571,
   277410714, 6000000000, 6000000000, 6000000000, 6000000000, 6000000000, 6000000000, 6000000000,
   6000000000, 6000000000, 6000000000, 6000000000, 6000000000, 6000000000, 6000000000, 6000000000]
/-- `data/wfpair.py:40-3730 _wfpair`, row 47 -/
def wfpair47 : List Nat := [0, 1614464286, 4101383929, 411116071, 277410714, 945937500, 1454017857,
   1881875000, 2309732143, 2630625000, 3085223214, 223928571, 116964286, 571562500, 812232143,
   1133125000, 1320312500, 1507500000, 1614464286, 90223214, 330892857, 223928571, 250669643,
   197187500, 384375000, 223928571, 223928571, 357633929, 384375000, 678526786, 437857143,
   651785714, 812232143, 1052901786, 1213348214, 1320312500, 1347053571, 63482143, 304151786,
   223928571, 250669643, 250669643, 384375000, 143705357, 223928571, 330892857, 411116071,
   678526786, 464598214, 544821429, 705267857, 838973214, 972678571, 1079642857, 1106383929,
   63482143, 277410714, 197187500, 919196429, 170446429, 170446429, 170446429, 170446429,
   223928571, 223928571, 170446429, 197187500, 170446429, 170446429, 197187500, 197187500,
   197187500, 330892857, 330892857, 197187500, 170446429, 250669643, 437857143, 732008929,
   919196429, 651785714, 571562500, 598303571, 785491071, 892455357, 972678571, 999419643,
   250669643, 277410714, 277410714, 250669643, 223928571, 304151786, 250669643, 250669643,
   437857143, 304151786, 223928571, 357633929, 223928571, 223928571, 250669643, 277410714,
   304151786, 6000000000, 6000000000, 6000000000, 6000000000, 6000000000, 6000000000, 6000000000,
   6000000000, 6000000000, 6000000000, 6000000000, 6000000000, 6000000000, 6000000000, 6000000000]
/-- `data/wfpair.py:40-3730 _wfpair`, row 48 -/
def wfpair48 : List Nat := [0, 2684107143, 2015580357, 330892857, 277410714, 625044643, 972678571,
   1079642857, 1159866071, 1347053571, 1534241071, 250669643, 116964286, 384375000, 491339286,
   598303571, 678526786, 732008929, 838973214, 90223214, 277410714, 223928571, 223928571,
   197187500, 330892857, 223928571, 250669643, 304151786, 330892857, 464598214, 384375000,
   437857143, 491339286, 571562500, 598303571, 651785714, 705267857, 63482143, 250669643,
   223928571, 223928571, 223928571, 304151786, 170446429, 223928571, 304151786, 330892857,
   464598214, 384375000, 384375000, 437857143, 464598214, 518080357, 544821429, 571562500,
   63482143, 250669643, 197187500, 491339286, 143705357, 170446429, 170446429, 170446429,
   197187500, 197187500, 170446429, 170446429, 170446429, 170446429, 170446429, 170446429,
   197187500, 250669643, 277410714, 223928571, 197187500, 250669643, 357633929, 464598214,
   518080357, 464598214, 384375000, 411116071, 437857143, 464598214, 491339286, 518080357,
   197187500, 223928571, 250669643, 223928571, 197187500, 277410714, 223928571, 223928571,
   330892857, 277410714, 197187500, 304151786, 223928571, 197187500, 223928571, 250669643,
   304151786, 6000000000, 6000000000, 6000000000, 6000000000, 6000000000, 6000000000, 6000000000,
   6000000000, 6000000000, 6000000000, 6000000000, 6000000000, 6000000000, 6000000000, 6000000000]
/-- `data/wfpair.py:40-3730 _wfpair`, row 49 -/
def wfpair49 : List Nat := [0, 1587723214, 4903616071, 330892857, 277410714, 999419643, 1427276786,
   2095803571, 3058482143, 3566562500, 3940937500, 223928571, 116964286, 1667946429, 1855133929,
   1962098214, 2069062500, 2256250000, 2470178571, 63482143, 250669643, 197187500, 197187500,
   170446429, 330892857, 197187500, 223928571, 304151786, 330892857, 571562500, 357633929,
   1560982143, 1855133929, 1828392857, 1935357143, 1988839286, 2176026786, 63482143, 223928571,
   197187500, 197187500, 197187500, 304151786, 143705357, 223928571, 277410714, 330892857,
   544821429, 384375000, 1400535714, 1667946429, 1694687500, 1721428571, 1774910714, 1908616071,
   63482143, 223928571, 170446429, 1748169643, 143705357, 143705357, 143705357, 143705357,
   197187500, 197187500, 170446429, 170446429, 170446429, 170446429, 170446429, 170446429,
   170446429, 250669643, 250669643, 197187500, 170446429, 250669643, 357633929, 625044643,
   1881875000, 544821429, 411116071, 464598214, 1667946429, 1641205357, 1721428571, 1801651786,
   197187500, 197187500, 197187500, 197187500, 170446429, 250669643, 892455357, 197187500,
   357633929, 250669643, 170446429, 277410714, 197187500, 170446429, 1908616071, 223928571,
   250669643, 6000000000, 6000000000, 6000000000, 6000000000, 6000000000, 6000000000, 6000000000,
   6000000000, 6000000000, 6000000000, 6000000000, 6000000000, 6000000000, 6000000000, 6000000000]
/-- `data/wfpair.py:40-3730 _wfpair`, row 50 -/
def wfpair50 : List Nat := [0, 1587723214, 6000000000, 384375000, 277410714, 1106383929,
   1347053571, 1988839286, 3459598214, 3753750000, 4876875000, 223928571, 116964286, 625044643,
   945937500, 1667946429, 2256250000, 2630625000, 2470178571, 90223214, 304151786, 223928571,
   223928571, 170446429, 357633929, 197187500, 223928571, 330892857, 357633929, 705267857,
   411116071, 758750000, 1026160714, 1641205357, 2176026786, 2577142857, 2095803571, 63482143,
   277410714, 223928571, 223928571, 223928571, 357633929, 143705357, 223928571, 304151786,
   357633929, 705267857, 437857143, 1667946429, 838973214, 1186607143, 1560982143, 1881875000,
   1694687500, 63482143, 250669643, 197187500, 1400535714, 143705357, 170446429, 170446429,
   170446429, 197187500, 197187500, 170446429, 170446429, 170446429, 170446429, 170446429,
   170446429, 197187500, 304151786, 304151786, 197187500, 170446429, 223928571, 411116071,
   705267857, 1159866071, 651785714, 1641205357, 678526786, 1079642857, 1400535714, 1855133929,
   1480758929, 223928571, 250669643, 223928571, 223928571, 785491071, 304151786, 223928571,
   223928571, 571562500, 277410714, 197187500, 330892857, 223928571, 197187500, 223928571,
   250669643, 304151786, 6000000000, 6000000000, 6000000000, 6000000000, 6000000000, 6000000000,
   6000000000, 6000000000, 6000000000, 6000000000, 6000000000, 6000000000, 6000000000, 6000000000,
   6000000000]
/-- `data/wfpair.py:40-3730 _wfpair`, row 51 -/
def wfpair51 : List Nat := [0, 1774910714, 6000000000, 411116071, 250669643, 1400535714,
   1400535714, 2095803571, 5545401786, 6000000000, 6000000000, 197187500, 90223214, 1935357143,
   1427276786, 2470178571, 3673526786, 4021160714, 4475758929, 63482143, 357633929, 250669643,
   250669643, 197187500, 357633929, 197187500, 223928571, 357633929, 411116071, 838973214,
   464598214, 1774910714, 1560982143, 2523660714, 3325892857, 3539821429, 3833973214, 63482143,
   330892857, 223928571, 250669643, 250669643, 384375000, 143705357, 197187500, 330892857,
   411116071, 838973214, 464598214, 1694687500, 1186607143, 2095803571, 2978258929, 3085223214,
   3272410714, 63482143, 304151786, 197187500, 2791071429, 170446429, 170446429, 170446429,
   170446429, 223928571, 223928571, 197187500, 197187500, 170446429, 170446429, 197187500,
   197187500, 197187500, 384375000, 357633929, 197187500, 170446429, 223928571, 464598214,
   678526786, 1748169643, 705267857, 1480758929, 919196429, 1828392857, 2844553571, 2924776786,
   3058482143, 304151786, 304151786, 277410714, 838973214, 945937500, 330892857, 277410714,
   250669643, 651785714, 304151786, 838973214, 384375000, 250669643, 223928571, 250669643,
   277410714, 330892857, 6000000000, 6000000000, 6000000000, 6000000000, 6000000000, 6000000000,
   6000000000, 6000000000, 6000000000, 6000000000, 6000000000, 6000000000, 6000000000, 6000000000,
   6000000000]
/-- `data/wfpair.py:40-3730 _wfpair`, row 52 -/
def wfpair52 : List Nat := [0, 1881875000, 6000000000, 411116071, 250669643, 1667946429,
   1454017857, 2229508929, 6000000000, 6000000000, 6000000000, 197187500, 116964286, 1988839286,
   1962098214, 2844553571, 6000000000, 6000000000, 6000000000, 63482143, 411116071, 250669643,
   277410714, 223928571, 357633929, 197187500, 223928571, 384375000, 437857143, 945937500,
   491339286, 1801651786, 1908616071, 3111964286, 6000000000, 6000000000, 6000000000, 63482143,
   357633929, 250669643, 277410714, 277410714, 411116071, 143705357, 223928571, 357633929,
   437857143, 972678571, 518080357, 1721428571, 1560982143, 2978258929, 4422276786, 6000000000,
   6000000000, 63482143, 357633929, 223928571, 5491919643, 170446429, 170446429, 170446429,
   170446429, 250669643, 223928571, 197187500, 197187500, 197187500, 197187500, 197187500,
   197187500, 223928571, 437857143, 384375000, 197187500, 170446429, 223928571, 518080357,
   678526786, 2336473214, 758750000, 1507500000, 1320312500, 2791071429, 4047901786, 5732589286,
   6000000000, 330892857, 357633929, 304151786, 785491071, 250669643, 357633929, 304151786,
   250669643, 758750000, 330892857, 972678571, 384375000, 250669643, 250669643, 1935357143,
   304151786, 357633929, 6000000000, 6000000000, 6000000000, 6000000000, 6000000000, 6000000000,
   6000000000, 6000000000, 6000000000, 6000000000, 6000000000, 6000000000, 6000000000, 6000000000,
   6000000000]
/-- `data/wfpair.py:40-3730 _wfpair`, row 53 -/
def wfpair53 : List Nat := [0, 2042321429, 6000000000, 437857143, 277410714, 1748169643,
   1534241071, 2389955357, 6000000000, 6000000000, 6000000000, 223928571, 116964286, 2042321429,
   2202767857, 2978258929, 6000000000, 6000000000, 6000000000, 90223214, 437857143, 277410714,
   304151786, 223928571, 357633929, 197187500, 223928571, 411116071, 464598214, 1026160714,
   518080357, 1801651786, 2363214286, 3218928571, 6000000000, 6000000000, 6000000000, 63482143,
   384375000, 277410714, 304151786, 304151786, 437857143, 143705357, 223928571, 384375000,
   464598214, 1079642857, 544821429, 1774910714, 1881875000, 3085223214, 6000000000, 6000000000,
   6000000000, 63482143, 384375000, 223928571, 6000000000, 197187500, 197187500, 197187500,
   197187500, 277410714, 250669643, 223928571, 223928571, 197187500, 197187500, 197187500,
   223928571, 223928571, 491339286, 411116071, 197187500, 170446429, 250669643, 571562500,
   705267857, 3325892857, 838973214, 1587723214, 1774910714, 3138705357, 5491919643, 6000000000,
   6000000000, 357633929, 411116071, 330892857, 812232143, 812232143, 384375000, 384375000,
   277410714, 838973214, 357633929, 945937500, 437857143, 277410714, 250669643, 1881875000,
   330892857, 384375000, 6000000000, 6000000000, 6000000000, 6000000000, 6000000000, 6000000000,
   6000000000, 6000000000, 6000000000, 6000000000, 6000000000, 6000000000, 6000000000, 6000000000,
   6000000000]
/-- `data/wfpair.py:40-3730 _wfpair`, row 54 -/
def wfpair54 : List Nat := [0, 2069062500, 6000000000, 437857143, 277410714, 1774910714,
   1587723214, 2443437500, 6000000000, 6000000000, 6000000000, 223928571, 116964286, 2149285714,
   1908616071, 3165446429, 6000000000, 6000000000, 6000000000, 90223214, 464598214, 304151786,
   330892857, 250669643, 384375000, 223928571, 250669643, 437857143, 491339286, 1079642857,
   544821429, 1962098214, 1988839286, 3406116071, 6000000000, 6000000000, 6000000000, 63482143,
   411116071, 277410714, 330892857, 330892857, 464598214, 170446429, 223928571, 411116071,
   491339286, 1106383929, 571562500, 1908616071, 1694687500, 3272410714, 6000000000, 6000000000,
   6000000000, 63482143, 437857143, 250669643, 6000000000, 197187500, 197187500, 197187500,
   197187500, 304151786, 250669643, 223928571, 223928571, 223928571, 223928571, 223928571,
   223928571, 250669643, 518080357, 437857143, 223928571, 197187500, 250669643, 598303571,
   758750000, 2443437500, 865714286, 1721428571, 1427276786, 2603883929, 6000000000, 6000000000,
   6000000000, 411116071, 2256250000, 357633929, 865714286, 945937500, 411116071, 544821429,
   304151786, 945937500, 384375000, 1026160714, 491339286, 304151786, 304151786, 1962098214,
   384375000, 437857143, 6000000000, 6000000000, 6000000000, 6000000000, 6000000000, 6000000000,
   6000000000, 6000000000, 6000000000, 6000000000, 6000000000, 6000000000, 6000000000, 6000000000,
   6000000000]
/-- `data/wfpair.py:40-3730 _wfpair`, row 55 -/
def wfpair55 : List Nat := [0, 250669643, 785491071, 90223214, 116964286, 116964286, 116964286,
   143705357, 170446429, 384375000, 1079642857, 143705357, 36741071, 63482143, 63482143, 63482143,
   63482143, 90223214, 90223214, 36741071, 36741071, 63482143, 63482143, 63482143, 63482143,
   90223214, 90223214, 63482143, 63482143, 63482143, 63482143, 63482143, 63482143, 63482143,
   63482143, 63482143, 90223214, 36741071, 36741071, 36741071, 63482143, 63482143, 63482143,
   90223214, 63482143, 63482143, 63482143, 63482143, 63482143, 63482143, 63482143, 63482143,
   63482143, 63482143, 63482143, 36741071, 36741071, 36741071, 63482143, 36741071, 63482143,
   63482143, 36741071, 36741071, 36741071, 63482143, 36741071, 63482143, 63482143, 63482143,
   63482143, 63482143, 63482143, 63482143, 63482143, 63482143, 63482143, 63482143, 63482143,
   63482143, 63482143, 63482143, 63482143, 63482143, 63482143, 63482143, 63482143, 36741071,
   36741071, 36741071, 36741071, 36741071, 36741071, 36741071, 36741071, 36741071, 36741071,
   36741071, 36741071, 36741071, 36741071, 36741071, 36741071, 36741071, 6000000000, 6000000000,
   6000000000, 6000000000, 6000000000, 6000000000, 6000000000, 6000000000, 6000000000, 6000000000,
   6000000000, 6000000000, 6000000000, 6000000000, 6000000000]
/-- `data/wfpair.py:40-3730 _wfpair`, row 56 -/
def wfpair56 : List Nat := [0, 1159866071, 1748169643, 197187500, 197187500, 384375000, 838973214,
   1106383929, 1159866071, 1347053571, 1400535714, 170446429, 63482143, 223928571, 330892857,
   437857143, 598303571, 838973214, 945937500, 36741071, 143705357, 143705357, 143705357,
   116964286, 223928571, 143705357, 170446429, 197187500, 223928571, 304151786, 250669643,
   277410714, 304151786, 384375000, 491339286, 598303571, 838973214, 36741071, 143705357,
   116964286, 143705357, 143705357, 223928571, 90223214, 170446429, 197187500, 223928571,
   277410714, 250669643, 223928571, 250669643, 304151786, 357633929, 384375000, 437857143,
   36741071, 116964286, 90223214, 330892857, 116964286, 116964286, 116964286, 116964286, 143705357,
   143705357, 116964286, 116964286, 116964286, 116964286, 116964286, 116964286, 143705357,
   143705357, 170446429, 143705357, 116964286, 170446429, 223928571, 330892857, 357633929,
   330892857, 223928571, 250669643, 277410714, 330892857, 357633929, 384375000, 116964286,
   116964286, 116964286, 116964286, 90223214, 143705357, 116964286, 116964286, 170446429,
   143705357, 90223214, 170446429, 116964286, 116964286, 116964286, 143705357, 143705357,
   6000000000, 6000000000, 6000000000, 6000000000, 6000000000, 6000000000, 6000000000, 6000000000,
   6000000000, 6000000000, 6000000000, 6000000000, 6000000000, 6000000000, 6000000000]
/-- `data/wfpair.py:40-3730 _wfpair`, row 57 -/
def wfpair57 : List Nat := [0, 544821429, 865714286, 170446429, 223928571, 277410714, 411116071,
   464598214, 491339286, 571562500, 651785714, 143705357, 90223214, 197187500, 223928571,
   250669643, 304151786, 330892857, 357633929, 63482143, 116964286, 116964286, 143705357,
   116964286, 170446429, 170446429, 197187500, 170446429, 197187500, 223928571, 223928571,
   197187500, 223928571, 250669643, 250669643, 277410714, 304151786, 36741071, 116964286,
   116964286, 143705357, 143705357, 170446429, 116964286, 197187500, 170446429, 197187500,
   197187500, 197187500, 170446429, 197187500, 197187500, 223928571, 223928571, 250669643,
   36741071, 90223214, 90223214, 223928571, 116964286, 116964286, 116964286, 116964286, 116964286,
   143705357, 116964286, 116964286, 116964286, 116964286, 116964286, 116964286, 143705357,
   143705357, 143705357, 170446429, 143705357, 197187500, 170446429, 223928571, 223928571,
   223928571, 170446429, 170446429, 197187500, 197187500, 223928571, 223928571, 90223214,
   116964286, 90223214, 90223214, 90223214, 223928571, 116964286, 116964286, 170446429, 116964286,
   90223214, 197187500, 116964286, 116964286, 116964286, 116964286, 116964286, 6000000000,
   6000000000, 6000000000, 6000000000, 6000000000, 6000000000, 6000000000, 6000000000, 6000000000,
   6000000000, 6000000000, 6000000000, 6000000000, 6000000000, 6000000000]
/-- `data/wfpair.py:40-3730 _wfpair`, row 58 -/
def wfpair58 : List Nat := [0, 1881875000, 6000000000, 384375000, 250669643, 1560982143,
   1454017857, 2256250000, 6000000000, 6000000000, 6000000000, 197187500, 90223214, 1988839286,
   1667946429, 2791071429, 6000000000, 6000000000, 6000000000, 63482143, 384375000, 250669643,
   277410714, 197187500, 330892857, 197187500, 223928571, 384375000, 411116071, 892455357,
   464598214, 1801651786, 1774910714, 3085223214, 6000000000, 6000000000, 6000000000, 63482143,
   357633929, 250669643, 277410714, 277410714, 411116071, 143705357, 197187500, 357633929,
   437857143, 919196429, 491339286, 1748169643, 1400535714, 2791071429, 5491919643, 6000000000,
   6000000000, 63482143, 330892857, 223928571, 6000000000, 170446429, 170446429, 170446429,
   170446429, 250669643, 223928571, 197187500, 197187500, 197187500, 197187500, 197187500,
   197187500, 223928571, 437857143, 384375000, 170446429, 170446429, 223928571, 491339286,
   651785714, 1988839286, 758750000, 1480758929, 1240089286, 2309732143, 4903616071, 6000000000,
   6000000000, 304151786, 357633929, 277410714, 785491071, 250669643, 330892857, 277410714,
   250669643, 705267857, 330892857, 972678571, 384375000, 250669643, 223928571, 1881875000,
   304151786, 357633929, 6000000000, 6000000000, 6000000000, 6000000000, 6000000000, 6000000000,
   6000000000, 6000000000, 6000000000, 6000000000, 6000000000, 6000000000, 6000000000, 6000000000,
   6000000000]
/-- `data/wfpair.py:40-3730 _wfpair`, row 59 -/
def wfpair59 : List Nat := [0, 464598214, 705267857, 90223214, 197187500, 250669643, 304151786,
   384375000, 411116071, 464598214, 544821429, 90223214, 90223214, 143705357, 170446429, 197187500,
   223928571, 250669643, 304151786, 63482143, 90223214, 90223214, 90223214, 90223214, 116964286,
   116964286, 143705357, 143705357, 143705357, 170446429, 170446429, 170446429, 170446429,
   197187500, 197187500, 223928571, 250669643, 63482143, 90223214, 116964286, 90223214, 90223214,
   116964286, 116964286, 143705357, 143705357, 143705357, 170446429, 143705357, 143705357,
   143705357, 170446429, 170446429, 197187500, 197187500, 36741071, 116964286, 116964286,
   170446429, 63482143, 63482143, 63482143, 63482143, 90223214, 90223214, 63482143, 63482143,
   63482143, 63482143, 90223214, 90223214, 90223214, 90223214, 116964286, 143705357, 143705357,
   143705357, 143705357, 170446429, 170446429, 170446429, 143705357, 143705357, 170446429,
   170446429, 170446429, 170446429, 63482143, 90223214, 116964286, 116964286, 90223214, 116964286,
   116964286, 116964286, 143705357, 143705357, 90223214, 143705357, 143705357, 116964286,
   116964286, 143705357, 143705357, 6000000000, 6000000000, 6000000000, 6000000000, 6000000000,
   6000000000, 6000000000, 6000000000, 6000000000, 6000000000, 6000000000, 6000000000, 6000000000,
   6000000000, 6000000000]
/-- `data/wfpair.py:40-3730 _wfpair`, row 60 -/
def wfpair60 : List Nat := [0, 491339286, 732008929, 90223214, 197187500, 250669643, 304151786,
   384375000, 411116071, 491339286, 544821429, 116964286, 90223214, 170446429, 197187500,
   223928571, 250669643, 277410714, 304151786, 90223214, 90223214, 90223214, 90223214, 90223214,
   116964286, 143705357, 143705357, 143705357, 143705357, 170446429, 170446429, 170446429,
   170446429, 197187500, 223928571, 223928571, 250669643, 63482143, 90223214, 116964286, 90223214,
   116964286, 116964286, 116964286, 143705357, 143705357, 143705357, 170446429, 170446429,
   143705357, 170446429, 170446429, 170446429, 197187500, 197187500, 63482143, 116964286,
   116964286, 170446429, 63482143, 63482143, 63482143, 63482143, 90223214, 90223214, 63482143,
   90223214, 90223214, 90223214, 90223214, 90223214, 90223214, 90223214, 116964286, 143705357,
   143705357, 143705357, 170446429, 170446429, 197187500, 170446429, 143705357, 143705357,
   170446429, 170446429, 170446429, 197187500, 63482143, 90223214, 116964286, 116964286, 90223214,
   116964286, 116964286, 143705357, 143705357, 143705357, 90223214, 143705357, 143705357,
   116964286, 116964286, 143705357, 170446429, 6000000000, 6000000000, 6000000000, 6000000000,
   6000000000, 6000000000, 6000000000, 6000000000, 6000000000, 6000000000, 6000000000, 6000000000,
   6000000000, 6000000000, 6000000000]
/-- `data/wfpair.py:40-3730 _wfpair`, row 61 -/
def wfpair61 : List Nat := [0, 491339286, 732008929, 90223214, 197187500, 250669643, 304151786,
   384375000, 411116071, 491339286, 571562500, 116964286, 90223214, 170446429, 197187500,
   223928571, 250669643, 277410714, 304151786, 90223214, 116964286, 116964286, 90223214, 116964286,
   143705357, 143705357, 143705357, 143705357, 143705357, 170446429, 170446429, 170446429,
   170446429, 197187500, 223928571, 223928571, 250669643, 63482143, 90223214, 143705357, 90223214,
   116964286, 116964286, 116964286, 143705357, 143705357, 143705357, 170446429, 170446429,
   143705357, 170446429, 170446429, 170446429, 197187500, 197187500, 63482143, 116964286,
   116964286, 170446429, 63482143, 63482143, 63482143, 63482143, 90223214, 90223214, 90223214,
   90223214, 90223214, 90223214, 90223214, 90223214, 90223214, 90223214, 116964286, 143705357,
   143705357, 143705357, 170446429, 170446429, 197187500, 170446429, 143705357, 143705357,
   170446429, 170446429, 170446429, 197187500, 63482143, 90223214, 116964286, 116964286, 90223214,
   116964286, 116964286, 143705357, 143705357, 143705357, 90223214, 143705357, 143705357,
   116964286, 116964286, 143705357, 170446429, 6000000000, 6000000000, 6000000000, 6000000000,
   6000000000, 6000000000, 6000000000, 6000000000, 6000000000, 6000000000, 6000000000, 6000000000,
   6000000000, 6000000000, 6000000000]
/-- `data/wfpair.py:40-3730 _wfpair`, row 62 -/
def wfpair62 : List Nat := [0, 491339286, 732008929, 90223214, 197187500, 250669643, 330892857,
   384375000, 437857143, 491339286, 571562500, 116964286, 90223214, 170446429, 197187500,
   223928571, 250669643, 277410714, 304151786, 90223214, 116964286, 116964286, 90223214, 116964286,
   143705357, 143705357, 143705357, 143705357, 143705357, 170446429, 170446429, 170446429,
   197187500, 197187500, 223928571, 223928571, 250669643, 63482143, 90223214, 143705357, 90223214,
   116964286, 143705357, 143705357, 143705357, 143705357, 143705357, 170446429, 170446429,
   143705357, 170446429, 170446429, 170446429, 197187500, 197187500, 36741071, 116964286,
   116964286, 170446429, 63482143, 63482143, 63482143, 63482143, 90223214, 90223214, 90223214,
   90223214, 90223214, 90223214, 90223214, 90223214, 90223214, 90223214, 116964286, 143705357,
   143705357, 143705357, 170446429, 170446429, 197187500, 197187500, 143705357, 170446429,
   170446429, 170446429, 170446429, 197187500, 63482143, 90223214, 116964286, 116964286, 90223214,
   116964286, 116964286, 143705357, 143705357, 143705357, 90223214, 143705357, 143705357,
   116964286, 116964286, 143705357, 170446429, 6000000000, 6000000000, 6000000000, 6000000000,
   6000000000, 6000000000, 6000000000, 6000000000, 6000000000, 6000000000, 6000000000, 6000000000,
   6000000000, 6000000000, 6000000000]
/-- `data/wfpair.py:40-3730 _wfpair`, row 63 -/
def wfpair63 : List Nat := [0, 651785714, 1052901786, 116964286, 250669643, 330892857, 491339286,
   571562500, 625044643, 705267857, 812232143, 143705357, 90223214, 197187500, 250669643,
   304151786, 357633929, 384375000, 437857143, 63482143, 116964286, 116964286, 116964286,
   116964286, 170446429, 170446429, 197187500, 170446429, 170446429, 223928571, 223928571,
   223928571, 250669643, 277410714, 304151786, 330892857, 357633929, 63482143, 116964286,
   143705357, 116964286, 116964286, 170446429, 143705357, 197187500, 170446429, 170446429,
   223928571, 197187500, 197187500, 197187500, 223928571, 250669643, 277410714, 304151786,
   36741071, 143705357, 116964286, 250669643, 90223214, 90223214, 90223214, 90223214, 90223214,
   116964286, 90223214, 90223214, 90223214, 90223214, 90223214, 90223214, 116964286, 116964286,
   143705357, 170446429, 170446429, 197187500, 197187500, 250669643, 250669643, 250669643,
   197187500, 197187500, 223928571, 223928571, 250669643, 277410714, 90223214, 116964286,
   143705357, 116964286, 116964286, 143705357, 116964286, 143705357, 170446429, 170446429,
   116964286, 143705357, 143705357, 116964286, 116964286, 143705357, 170446429, 6000000000,
   6000000000, 6000000000, 6000000000, 6000000000, 6000000000, 6000000000, 6000000000, 6000000000,
   6000000000, 6000000000, 6000000000, 6000000000, 6000000000, 6000000000]
/-- `data/wfpair.py:40-3730 _wfpair`, row 64 -/
def wfpair64 : List Nat := [0, 625044643, 892455357, 143705357, 250669643, 304151786, 384375000,
   464598214, 518080357, 598303571, 678526786, 143705357, 90223214, 197187500, 223928571,
   277410714, 304151786, 330892857, 384375000, 63482143, 143705357, 116964286, 116964286,
   116964286, 170446429, 170446429, 197187500, 170446429, 170446429, 223928571, 197187500,
   197187500, 223928571, 250669643, 277410714, 277410714, 304151786, 63482143, 116964286,
   170446429, 116964286, 143705357, 170446429, 143705357, 197187500, 170446429, 170446429,
   223928571, 197187500, 197187500, 197187500, 223928571, 223928571, 250669643, 250669643,
   36741071, 143705357, 143705357, 223928571, 90223214, 90223214, 90223214, 90223214, 116964286,
   116964286, 90223214, 90223214, 90223214, 90223214, 90223214, 116964286, 116964286, 116964286,
   143705357, 170446429, 170446429, 197187500, 197187500, 223928571, 223928571, 223928571,
   197187500, 197187500, 197187500, 223928571, 223928571, 223928571, 90223214, 116964286,
   143705357, 116964286, 116964286, 143705357, 143705357, 170446429, 170446429, 170446429,
   116964286, 170446429, 170446429, 143705357, 143705357, 170446429, 197187500, 6000000000,
   6000000000, 6000000000, 6000000000, 6000000000, 6000000000, 6000000000, 6000000000, 6000000000,
   6000000000, 6000000000, 6000000000, 6000000000, 6000000000, 6000000000]
/-- `data/wfpair.py:40-3730 _wfpair`, row 65 -/
def wfpair65 : List Nat := [0, 544821429, 785491071, 116964286, 197187500, 277410714, 357633929,
   411116071, 464598214, 544821429, 598303571, 116964286, 116964286, 170446429, 197187500,
   250669643, 277410714, 304151786, 330892857, 90223214, 116964286, 116964286, 116964286,
   116964286, 143705357, 143705357, 170446429, 170446429, 143705357, 197187500, 170446429,
   170446429, 197187500, 223928571, 223928571, 250669643, 277410714, 63482143, 90223214, 143705357,
   116964286, 116964286, 143705357, 143705357, 170446429, 143705357, 170446429, 170446429,
   170446429, 170446429, 170446429, 197187500, 197187500, 223928571, 223928571, 63482143,
   116964286, 116964286, 197187500, 63482143, 63482143, 90223214, 90223214, 90223214, 90223214,
   90223214, 90223214, 90223214, 90223214, 90223214, 90223214, 90223214, 116964286, 143705357,
   143705357, 143705357, 170446429, 170446429, 197187500, 197187500, 197187500, 170446429,
   170446429, 170446429, 197187500, 197187500, 197187500, 63482143, 90223214, 143705357, 116964286,
   116964286, 116964286, 116964286, 143705357, 143705357, 170446429, 116964286, 143705357,
   143705357, 116964286, 116964286, 170446429, 170446429, 6000000000, 6000000000, 6000000000,
   6000000000, 6000000000, 6000000000, 6000000000, 6000000000, 6000000000, 6000000000, 6000000000,
   6000000000, 6000000000, 6000000000, 6000000000]
/-- `data/wfpair.py:40-3730 _wfpair`, row 66 -/
def wfpair66 : List Nat := [0, 571562500, 812232143, 116964286, 223928571, 277410714, 357633929,
   437857143, 464598214, 544821429, 625044643, 116964286, 90223214, 170446429, 223928571,
   250669643, 277410714, 304151786, 330892857, 63482143, 116964286, 116964286, 116964286,
   116964286, 143705357, 143705357, 170446429, 170446429, 170446429, 197187500, 197187500,
   197187500, 197187500, 223928571, 250669643, 250669643, 277410714, 63482143, 116964286,
   143705357, 116964286, 116964286, 143705357, 143705357, 170446429, 143705357, 170446429,
   197187500, 170446429, 170446429, 170446429, 197187500, 197187500, 223928571, 223928571,
   36741071, 116964286, 116964286, 197187500, 63482143, 90223214, 90223214, 90223214, 90223214,
   90223214, 90223214, 90223214, 90223214, 90223214, 90223214, 90223214, 90223214, 116964286,
   143705357, 143705357, 170446429, 170446429, 170446429, 197187500, 223928571, 197187500,
   170446429, 170446429, 197187500, 197187500, 197187500, 223928571, 90223214, 90223214, 143705357,
   116964286, 116964286, 116964286, 116964286, 143705357, 143705357, 170446429, 116964286,
   143705357, 143705357, 116964286, 143705357, 170446429, 170446429, 6000000000, 6000000000,
   6000000000, 6000000000, 6000000000, 6000000000, 6000000000, 6000000000, 6000000000, 6000000000,
   6000000000, 6000000000, 6000000000, 6000000000, 6000000000]
/-- `data/wfpair.py:40-3730 _wfpair`, row 67 -/
def wfpair67 : List Nat := [0, 518080357, 758750000, 116964286, 197187500, 250669643, 330892857,
   411116071, 437857143, 518080357, 571562500, 116964286, 116964286, 170446429, 197187500,
   223928571, 250669643, 277410714, 330892857, 90223214, 116964286, 116964286, 116964286,
   116964286, 143705357, 143705357, 170446429, 170446429, 143705357, 197187500, 170446429,
   170446429, 197187500, 223928571, 223928571, 250669643, 277410714, 63482143, 90223214, 143705357,
   116964286, 116964286, 143705357, 143705357, 170446429, 143705357, 143705357, 170446429,
   170446429, 170446429, 170446429, 170446429, 197187500, 197187500, 223928571, 63482143,
   116964286, 116964286, 197187500, 63482143, 90223214, 90223214, 90223214, 90223214, 90223214,
   90223214, 90223214, 90223214, 90223214, 90223214, 90223214, 90223214, 116964286, 143705357,
   143705357, 143705357, 170446429, 170446429, 197187500, 197187500, 197187500, 170446429,
   170446429, 170446429, 170446429, 197187500, 197187500, 90223214, 90223214, 143705357, 116964286,
   116964286, 116964286, 116964286, 143705357, 143705357, 170446429, 116964286, 143705357,
   143705357, 116964286, 143705357, 170446429, 170446429, 6000000000, 6000000000, 6000000000,
   6000000000, 6000000000, 6000000000, 6000000000, 6000000000, 6000000000, 6000000000, 6000000000,
   6000000000, 6000000000, 6000000000, 6000000000]
/-- `data/wfpair.py:40-3730 _wfpair`, row 68 -/
def wfpair68 : List Nat := [0, 518080357, 758750000, 116964286, 197187500, 277410714, 330892857,
   411116071, 437857143, 518080357, 598303571, 116964286, 116964286, 170446429, 197187500,
   223928571, 250669643, 277410714, 330892857, 90223214, 116964286, 116964286, 116964286,
   116964286, 143705357, 143705357, 170446429, 170446429, 143705357, 197187500, 170446429,
   170446429, 197187500, 223928571, 223928571, 250669643, 277410714, 63482143, 116964286,
   143705357, 116964286, 116964286, 143705357, 143705357, 170446429, 143705357, 143705357,
   170446429, 170446429, 170446429, 170446429, 170446429, 197187500, 197187500, 223928571,
   63482143, 116964286, 116964286, 197187500, 63482143, 90223214, 90223214, 90223214, 90223214,
   90223214, 90223214, 90223214, 90223214, 90223214, 90223214, 90223214, 90223214, 116964286,
   143705357, 143705357, 143705357, 170446429, 170446429, 197187500, 197187500, 197187500,
   170446429, 170446429, 170446429, 170446429, 197187500, 197187500, 90223214, 90223214, 143705357,
   116964286, 116964286, 116964286, 116964286, 143705357, 143705357, 170446429, 116964286,
   143705357, 143705357, 116964286, 143705357, 170446429, 170446429, 6000000000, 6000000000,
   6000000000, 6000000000, 6000000000, 6000000000, 6000000000, 6000000000, 6000000000, 6000000000,
   6000000000, 6000000000, 6000000000, 6000000000, 6000000000]
/-- `data/wfpair.py:40-3730 _wfpair`, row 69 -/
def wfpair69 : List Nat := [0, 544821429, 785491071, 116964286, 223928571, 277410714, 330892857,
   411116071, 464598214, 518080357, 598303571, 116964286, 116964286, 170446429, 197187500,
   223928571, 250669643, 277410714, 330892857, 90223214, 116964286, 116964286, 116964286,
   116964286, 143705357, 143705357, 170446429, 170446429, 170446429, 197187500, 170446429,
   170446429, 197187500, 223928571, 223928571, 250669643, 277410714, 63482143, 116964286,
   143705357, 116964286, 116964286, 143705357, 143705357, 170446429, 143705357, 170446429,
   197187500, 170446429, 170446429, 170446429, 197187500, 197187500, 197187500, 223928571,
   63482143, 116964286, 116964286, 197187500, 90223214, 90223214, 90223214, 90223214, 90223214,
   90223214, 90223214, 90223214, 90223214, 90223214, 90223214, 90223214, 90223214, 116964286,
   143705357, 143705357, 143705357, 170446429, 170446429, 197187500, 197187500, 197187500,
   170446429, 170446429, 170446429, 170446429, 197187500, 197187500, 90223214, 90223214, 143705357,
   116964286, 116964286, 116964286, 116964286, 143705357, 143705357, 170446429, 116964286,
   143705357, 143705357, 116964286, 143705357, 170446429, 170446429, 6000000000, 6000000000,
   6000000000, 6000000000, 6000000000, 6000000000, 6000000000, 6000000000, 6000000000, 6000000000,
   6000000000, 6000000000, 6000000000, 6000000000, 6000000000]
/-- `data/wfpair.py:40-3730 _wfpair`, row 70 -/
def wfpair70 : List Nat := [0, 571562500, 812232143, 116964286, 223928571, 277410714, 357633929,
   437857143, 464598214, 544821429, 625044643, 143705357, 116964286, 170446429, 223928571,
   250669643, 277410714, 304151786, 330892857, 90223214, 116964286, 116964286, 116964286,
   116964286, 143705357, 143705357, 170446429, 170446429, 170446429, 197187500, 197187500,
   197187500, 197187500, 223928571, 250669643, 250669643, 277410714, 63482143, 116964286,
   143705357, 116964286, 116964286, 143705357, 143705357, 170446429, 143705357, 170446429,
   197187500, 170446429, 170446429, 170446429, 197187500, 197187500, 223928571, 223928571,
   63482143, 116964286, 116964286, 197187500, 90223214, 90223214, 90223214, 90223214, 90223214,
   116964286, 90223214, 90223214, 90223214, 90223214, 90223214, 90223214, 116964286, 116964286,
   143705357, 170446429, 170446429, 170446429, 170446429, 197187500, 223928571, 197187500,
   170446429, 170446429, 197187500, 197187500, 197187500, 223928571, 90223214, 90223214, 143705357,
   116964286, 116964286, 143705357, 116964286, 143705357, 170446429, 170446429, 116964286,
   143705357, 143705357, 116964286, 143705357, 170446429, 170446429, 6000000000, 6000000000,
   6000000000, 6000000000, 6000000000, 6000000000, 6000000000, 6000000000, 6000000000, 6000000000,
   6000000000, 6000000000, 6000000000, 6000000000, 6000000000]
/-- `data/wfpair.py:40-3730 _wfpair`, row 71 -/
def wfpair71 : List Nat := [0, 598303571, 838973214, 143705357, 250669643, 304151786, 384375000,
   464598214, 491339286, 571562500, 651785714, 143705357, 116964286, 197187500, 223928571,
   250669643, 277410714, 330892857, 357633929, 90223214, 143705357, 143705357, 116964286,
   116964286, 170446429, 170446429, 197187500, 170446429, 170446429, 223928571, 197187500,
   197187500, 223928571, 250669643, 250669643, 277410714, 304151786, 63482143, 116964286,
   170446429, 116964286, 143705357, 170446429, 170446429, 170446429, 170446429, 170446429,
   197187500, 197187500, 170446429, 197187500, 197187500, 223928571, 223928571, 250669643,
   63482143, 143705357, 143705357, 223928571, 90223214, 90223214, 90223214, 90223214, 116964286,
   116964286, 90223214, 90223214, 90223214, 90223214, 90223214, 116964286, 116964286, 116964286,
   143705357, 170446429, 170446429, 170446429, 197187500, 223928571, 223928571, 223928571,
   170446429, 197187500, 197187500, 197187500, 223928571, 223928571, 90223214, 116964286,
   143705357, 143705357, 116964286, 143705357, 143705357, 170446429, 170446429, 170446429,
   116964286, 170446429, 170446429, 143705357, 143705357, 170446429, 197187500, 6000000000,
   6000000000, 6000000000, 6000000000, 6000000000, 6000000000, 6000000000, 6000000000, 6000000000,
   6000000000, 6000000000, 6000000000, 6000000000, 6000000000, 6000000000]
/-- `data/wfpair.py:40-3730 _wfpair`, row 72 -/
def wfpair72 : List Nat := [0, 972678571, 1667946429, 170446429, 330892857, 491339286, 838973214,
   919196429, 972678571, 1106383929, 1240089286, 197187500, 143705357, 277410714, 411116071,
   518080357, 571562500, 651785714, 705267857, 90223214, 143705357, 143705357, 143705357,
   143705357, 223928571, 197187500, 250669643, 223928571, 223928571, 357633929, 277410714,
   330892857, 384375000, 464598214, 544821429, 571562500, 598303571, 90223214, 143705357,
   170446429, 143705357, 143705357, 197187500, 170446429, 250669643, 197187500, 223928571,
   330892857, 250669643, 250669643, 304151786, 384375000, 437857143, 491339286, 518080357,
   63482143, 143705357, 143705357, 437857143, 90223214, 90223214, 90223214, 90223214, 116964286,
   116964286, 116964286, 116964286, 116964286, 116964286, 116964286, 116964286, 116964286,
   143705357, 170446429, 223928571, 223928571, 250669643, 250669643, 357633929, 464598214,
   357633929, 250669643, 277410714, 330892857, 411116071, 464598214, 464598214, 116964286,
   116964286, 170446429, 143705357, 116964286, 170446429, 143705357, 170446429, 223928571,
   197187500, 116964286, 197187500, 170446429, 143705357, 143705357, 170446429, 223928571,
   6000000000, 6000000000, 6000000000, 6000000000, 6000000000, 6000000000, 6000000000, 6000000000,
   6000000000, 6000000000, 6000000000, 6000000000, 6000000000, 6000000000, 6000000000]
/-- `data/wfpair.py:40-3730 _wfpair`, row 73 -/
def wfpair73 : List Nat := [0, 1026160714, 1801651786, 250669643, 304151786, 464598214, 812232143,
   919196429, 999419643, 1159866071, 1373794643, 223928571, 143705357, 277410714, 384375000,
   464598214, 518080357, 598303571, 678526786, 90223214, 170446429, 170446429, 170446429,
   143705357, 250669643, 223928571, 250669643, 223928571, 250669643, 357633929, 277410714,
   304151786, 357633929, 437857143, 464598214, 518080357, 544821429, 63482143, 170446429,
   170446429, 170446429, 170446429, 223928571, 170446429, 250669643, 223928571, 250669643,
   330892857, 277410714, 250669643, 304151786, 357633929, 384375000, 411116071, 437857143,
   63482143, 170446429, 143705357, 384375000, 116964286, 116964286, 116964286, 116964286,
   143705357, 143705357, 143705357, 143705357, 143705357, 143705357, 143705357, 143705357,
   143705357, 170446429, 197187500, 250669643, 197187500, 277410714, 250669643, 357633929,
   411116071, 357633929, 277410714, 277410714, 330892857, 357633929, 384375000, 411116071,
   143705357, 143705357, 170446429, 143705357, 143705357, 197187500, 143705357, 170446429,
   250669643, 197187500, 143705357, 223928571, 170446429, 143705357, 170446429, 170446429,
   223928571, 6000000000, 6000000000, 6000000000, 6000000000, 6000000000, 6000000000, 6000000000,
   6000000000, 6000000000, 6000000000, 6000000000, 6000000000, 6000000000, 6000000000, 6000000000]
/-- `data/wfpair.py:40-3730 _wfpair`, row 74 -/
def wfpair74 : List Nat := [0, 518080357, 705267857, 330892857, 250669643, 330892857, 357633929,
   384375000, 411116071, 491339286, 544821429, 197187500, 116964286, 223928571, 223928571,
   223928571, 250669643, 277410714, 304151786, 63482143, 170446429, 197187500, 197187500,
   170446429, 197187500, 197187500, 197187500, 250669643, 223928571, 197187500, 223928571,
   197187500, 223928571, 223928571, 223928571, 223928571, 250669643, 63482143, 170446429,
   170446429, 197187500, 197187500, 197187500, 143705357, 223928571, 197187500, 223928571,
   197187500, 223928571, 197187500, 197187500, 197187500, 197187500, 197187500, 223928571,
   63482143, 143705357, 170446429, 170446429, 143705357, 143705357, 143705357, 143705357,
   170446429, 170446429, 143705357, 143705357, 143705357, 143705357, 143705357, 170446429,
   170446429, 223928571, 250669643, 143705357, 170446429, 250669643, 197187500, 197187500,
   197187500, 223928571, 197187500, 197187500, 170446429, 170446429, 197187500, 197187500,
   143705357, 143705357, 116964286, 170446429, 170446429, 170446429, 170446429, 143705357,
   143705357, 143705357, 170446429, 143705357, 143705357, 143705357, 143705357, 143705357,
   143705357, 6000000000, 6000000000, 6000000000, 6000000000, 6000000000, 6000000000, 6000000000,
   6000000000, 6000000000, 6000000000, 6000000000, 6000000000, 6000000000, 6000000000, 6000000000]
/-- `data/wfpair.py:40-3730 _wfpair`, row 75 -/
def wfpair75 : List Nat := [0, 464598214, 598303571, 357633929, 197187500, 304151786, 304151786,
   330892857, 357633929, 437857143, 491339286, 197187500, 116964286, 197187500, 197187500,
   197187500, 223928571, 250669643, 277410714, 90223214, 143705357, 197187500, 197187500,
   170446429, 170446429, 143705357, 197187500, 223928571, 223928571, 197187500, 223928571,
   170446429, 197187500, 197187500, 197187500, 223928571, 223928571, 90223214, 143705357,
   170446429, 197187500, 197187500, 197187500, 116964286, 143705357, 197187500, 197187500,
   170446429, 197187500, 170446429, 170446429, 170446429, 170446429, 170446429, 197187500,
   63482143, 116964286, 143705357, 170446429, 143705357, 143705357, 143705357, 143705357,
   170446429, 170446429, 143705357, 170446429, 143705357, 143705357, 143705357, 170446429,
   170446429, 223928571, 197187500, 170446429, 116964286, 143705357, 170446429, 197187500,
   170446429, 197187500, 170446429, 170446429, 170446429, 170446429, 170446429, 170446429,
   116964286, 116964286, 116964286, 143705357, 143705357, 170446429, 143705357, 143705357,
   143705357, 143705357, 170446429, 143705357, 143705357, 143705357, 143705357, 116964286,
   116964286, 6000000000, 6000000000, 6000000000, 6000000000, 6000000000, 6000000000, 6000000000,
   6000000000, 6000000000, 6000000000, 6000000000, 6000000000, 6000000000, 6000000000, 6000000000]
/-- `data/wfpair.py:40-3730 _wfpair`, row 76 -/
def wfpair76 : List Nat := [0, 598303571, 785491071, 330892857, 223928571, 384375000, 411116071,
   437857143, 491339286, 571562500, 625044643, 223928571, 116964286, 277410714, 277410714,
   277410714, 277410714, 330892857, 357633929, 90223214, 223928571, 197187500, 197187500,
   170446429, 250669643, 170446429, 197187500, 304151786, 277410714, 250669643, 277410714,
   250669643, 277410714, 250669643, 250669643, 277410714, 304151786, 90223214, 197187500,
   223928571, 197187500, 223928571, 250669643, 143705357, 170446429, 250669643, 277410714,
   250669643, 250669643, 250669643, 223928571, 223928571, 223928571, 250669643, 250669643,
   63482143, 170446429, 197187500, 223928571, 143705357, 143705357, 143705357, 143705357,
   197187500, 197187500, 170446429, 170446429, 170446429, 170446429, 170446429, 170446429,
   170446429, 250669643, 277410714, 250669643, 143705357, 170446429, 250669643, 250669643,
   250669643, 250669643, 223928571, 223928571, 223928571, 223928571, 223928571, 250669643,
   170446429, 170446429, 143705357, 197187500, 170446429, 197187500, 197187500, 197187500,
   170446429, 170446429, 170446429, 197187500, 170446429, 197187500, 197187500, 170446429,
   170446429, 6000000000, 6000000000, 6000000000, 6000000000, 6000000000, 6000000000, 6000000000,
   6000000000, 6000000000, 6000000000, 6000000000, 6000000000, 6000000000, 6000000000, 6000000000]
/-- `data/wfpair.py:40-3730 _wfpair`, row 77 -/
def wfpair77 : List Nat := [0, 2202767857, 2336473214, 330892857, 277410714, 651785714, 1159866071,
   1240089286, 1347053571, 1560982143, 1774910714, 223928571, 116964286, 384375000, 491339286,
   625044643, 732008929, 838973214, 945937500, 90223214, 250669643, 197187500, 197187500,
   170446429, 304151786, 223928571, 223928571, 304151786, 304151786, 464598214, 357633929,
   411116071, 491339286, 598303571, 625044643, 705267857, 758750000, 63482143, 223928571,
   197187500, 197187500, 223928571, 304151786, 143705357, 223928571, 277410714, 304151786,
   437857143, 357633929, 357633929, 411116071, 464598214, 518080357, 571562500, 598303571,
   63482143, 223928571, 170446429, 491339286, 143705357, 170446429, 170446429, 170446429,
   197187500, 197187500, 170446429, 170446429, 170446429, 170446429, 170446429, 170446429,
   197187500, 250669643, 250669643, 197187500, 170446429, 250669643, 330892857, 464598214,
   544821429, 437857143, 357633929, 384375000, 437857143, 464598214, 518080357, 544821429,
   197187500, 197187500, 223928571, 197187500, 170446429, 277410714, 197187500, 197187500,
   330892857, 250669643, 170446429, 304151786, 223928571, 197187500, 197187500, 223928571,
   277410714, 6000000000, 6000000000, 6000000000, 6000000000, 6000000000, 6000000000, 6000000000,
   6000000000, 6000000000, 6000000000, 6000000000, 6000000000, 6000000000, 6000000000, 6000000000]
/-- `data/wfpair.py:40-3730 _wfpair`, row 78 -/
def wfpair78 : List Nat := [0, 2042321429, 3058482143, 437857143, 277410714, 1159866071,
   1293571429, 1320312500, 1480758929, 1774910714, 2095803571, 223928571, 116964286, 651785714,
   785491071, 812232143, 865714286, 945937500, 1079642857, 90223214, 357633929, 250669643,
   277410714, 223928571, 384375000, 223928571, 223928571, 357633929, 411116071, 732008929,
   464598214, 705267857, 785491071, 758750000, 758750000, 838973214, 892455357, 63482143,
   330892857, 250669643, 277410714, 277410714, 384375000, 143705357, 223928571, 357633929,
   411116071, 732008929, 464598214, 625044643, 705267857, 678526786, 678526786, 705267857,
   758750000, 63482143, 330892857, 223928571, 651785714, 170446429, 170446429, 170446429,
   170446429, 250669643, 223928571, 197187500, 197187500, 197187500, 197187500, 197187500,
   197187500, 223928571, 357633929, 357633929, 197187500, 197187500, 250669643, 464598214,
   544821429, 705267857, 651785714, 651785714, 678526786, 651785714, 651785714, 651785714,
   705267857, 277410714, 304151786, 304151786, 277410714, 250669643, 330892857, 812232143,
   250669643, 571562500, 330892857, 223928571, 384375000, 250669643, 223928571, 277410714,
   277410714, 357633929, 6000000000, 6000000000, 6000000000, 6000000000, 6000000000, 6000000000,
   6000000000, 6000000000, 6000000000, 6000000000, 6000000000, 6000000000, 6000000000, 6000000000,
   6000000000]
/-- `data/wfpair.py:40-3730 _wfpair`, row 79 -/
def wfpair79 : List Nat := [0, 1908616071, 6000000000, 437857143, 277410714, 1454017857,
   1507500000, 2256250000, 4903616071, 5625625000, 6000000000, 223928571, 116964286, 1293571429,
   1373794643, 2309732143, 3646785714, 4689687500, 3727008929, 90223214, 411116071, 277410714,
   304151786, 223928571, 384375000, 223928571, 223928571, 411116071, 437857143, 892455357,
   491339286, 1801651786, 1427276786, 2389955357, 3833973214, 5572142857, 3058482143, 63482143,
   357633929, 250669643, 304151786, 304151786, 437857143, 143705357, 223928571, 384375000,
   437857143, 919196429, 518080357, 1881875000, 1159866071, 1748169643, 2336473214, 3325892857,
   2443437500, 63482143, 357633929, 223928571, 1988839286, 170446429, 197187500, 197187500,
   197187500, 250669643, 223928571, 197187500, 223928571, 197187500, 197187500, 197187500,
   223928571, 223928571, 464598214, 411116071, 197187500, 170446429, 250669643, 544821429,
   705267857, 1614464286, 785491071, 1774910714, 972678571, 1507500000, 2122544643, 3138705357,
   2229508929, 330892857, 357633929, 304151786, 838973214, 945937500, 357633929, 330892857,
   277410714, 732008929, 357633929, 838973214, 437857143, 277410714, 250669643, 304151786,
   330892857, 357633929, 6000000000, 6000000000, 6000000000, 6000000000, 6000000000, 6000000000,
   6000000000, 6000000000, 6000000000, 6000000000, 6000000000, 6000000000, 6000000000, 6000000000,
   6000000000]
/-- `data/wfpair.py:40-3730 _wfpair`, row 80 -/
def wfpair80 : List Nat := [0, 2256250000, 3085223214, 411116071, 277410714, 919196429, 1560982143,
   1667946429, 1801651786, 2095803571, 2363214286, 223928571, 116964286, 544821429, 732008929,
   892455357, 999419643, 1133125000, 1240089286, 90223214, 330892857, 250669643, 277410714,
   223928571, 384375000, 223928571, 250669643, 357633929, 411116071, 2069062500, 437857143,
   625044643, 732008929, 838973214, 892455357, 972678571, 1052901786, 63482143, 304151786,
   250669643, 277410714, 277410714, 384375000, 170446429, 223928571, 357633929, 411116071,
   651785714, 464598214, 544821429, 651785714, 705267857, 758750000, 838973214, 865714286,
   63482143, 330892857, 223928571, 758750000, 170446429, 170446429, 170446429, 197187500,
   250669643, 223928571, 197187500, 197187500, 197187500, 197187500, 197187500, 197187500,
   223928571, 357633929, 357633929, 223928571, 197187500, 250669643, 437857143, 651785714,
   785491071, 598303571, 544821429, 571562500, 678526786, 705267857, 758750000, 785491071,
   277410714, 304151786, 304151786, 277410714, 250669643, 330892857, 277410714, 277410714,
   518080357, 330892857, 250669643, 384375000, 250669643, 250669643, 277410714, 304151786,
   357633929, 6000000000, 6000000000, 6000000000, 6000000000, 6000000000, 6000000000, 6000000000,
   6000000000, 6000000000, 6000000000, 6000000000, 6000000000, 6000000000, 6000000000, 6000000000]
/-- `data/wfpair.py:40-3730 _wfpair`, row 81 -/
def wfpair81 : List Nat := [0, 1614464286, 4716428571, 330892857, 277410714, 1855133929,
   1347053571, 2095803571, 2951517857, 3406116071, 3780491071, 223928571, 116964286, 437857143,
   1721428571, 1774910714, 1881875000, 2069062500, 2309732143, 63482143, 250669643, 197187500,
   197187500, 170446429, 330892857, 197187500, 223928571, 304151786, 330892857, 571562500,
   357633929, 544821429, 1694687500, 1667946429, 1774910714, 1855133929, 2015580357, 63482143,
   223928571, 197187500, 197187500, 223928571, 304151786, 143705357, 223928571, 277410714,
   330892857, 571562500, 384375000, 411116071, 1641205357, 1480758929, 1507500000, 1587723214,
   1721428571, 63482143, 223928571, 170446429, 1480758929, 143705357, 143705357, 143705357,
   143705357, 197187500, 197187500, 170446429, 170446429, 170446429, 170446429, 170446429,
   170446429, 170446429, 250669643, 277410714, 197187500, 170446429, 223928571, 357633929,
   651785714, 1774910714, 544821429, 437857143, 1641205357, 1454017857, 1427276786, 1454017857,
   1587723214, 197187500, 223928571, 197187500, 197187500, 170446429, 250669643, 197187500,
   197187500, 357633929, 250669643, 1828392857, 304151786, 197187500, 170446429, 197187500,
   223928571, 250669643, 6000000000, 6000000000, 6000000000, 6000000000, 6000000000, 6000000000,
   6000000000, 6000000000, 6000000000, 6000000000, 6000000000, 6000000000, 6000000000, 6000000000,
   6000000000]
/-- `data/wfpair.py:40-3730 _wfpair`, row 82 -/
def wfpair82 : List Nat := [0, 1507500000, 5358214286, 357633929, 250669643, 945937500, 1347053571,
   1908616071, 2924776786, 3165446429, 3940937500, 197187500, 90223214, 491339286, 785491071,
   1454017857, 1988839286, 2256250000, 2229508929, 63482143, 277410714, 197187500, 223928571,
   170446429, 357633929, 197187500, 223928571, 304151786, 330892857, 598303571, 384375000,
   571562500, 838973214, 1507500000, 1881875000, 2149285714, 1908616071, 63482143, 250669643,
   197187500, 223928571, 223928571, 330892857, 143705357, 197187500, 277410714, 357633929,
   598303571, 411116071, 464598214, 678526786, 919196429, 1320312500, 1774910714, 1427276786,
   63482143, 250669643, 170446429, 1240089286, 143705357, 143705357, 143705357, 170446429,
   197187500, 197187500, 170446429, 170446429, 170446429, 170446429, 170446429, 170446429,
   197187500, 277410714, 277410714, 197187500, 170446429, 223928571, 384375000, 678526786,
   972678571, 571562500, 1641205357, 544821429, 812232143, 1106383929, 1560982143, 1240089286,
   223928571, 223928571, 223928571, 197187500, 170446429, 277410714, 838973214, 197187500,
   411116071, 250669643, 170446429, 330892857, 197187500, 197187500, 197187500, 223928571,
   277410714, 6000000000, 6000000000, 6000000000, 6000000000, 6000000000, 6000000000, 6000000000,
   6000000000, 6000000000, 6000000000, 6000000000, 6000000000, 6000000000, 6000000000, 6000000000]
/-- `data/wfpair.py:40-3730 _wfpair`, row 83 -/
def wfpair83 : List Nat := [0, 1667946429, 6000000000, 411116071, 250669643, 1213348214,
   1347053571, 1988839286, 4903616071, 5331473214, 6000000000, 197187500, 90223214, 1908616071,
   1213348214, 2416696429, 3753750000, 4101383929, 3807232143, 63482143, 330892857, 223928571,
   223928571, 197187500, 330892857, 197187500, 197187500, 330892857, 384375000, 758750000,
   437857143, 1774910714, 1373794643, 2496919643, 3379375000, 3620044643, 3192187500, 63482143,
   304151786, 223928571, 250669643, 250669643, 357633929, 143705357, 197187500, 330892857,
   384375000, 785491071, 437857143, 1667946429, 1079642857, 1828392857, 2791071429, 3138705357,
   2603883929, 63482143, 277410714, 197187500, 2309732143, 170446429, 170446429, 170446429,
   170446429, 223928571, 197187500, 170446429, 197187500, 170446429, 170446429, 170446429,
   197187500, 197187500, 330892857, 330892857, 170446429, 170446429, 223928571, 437857143,
   651785714, 1507500000, 678526786, 1454017857, 812232143, 1641205357, 2523660714, 2951517857,
   2389955357, 277410714, 277410714, 250669643, 812232143, 972678571, 304151786, 250669643,
   223928571, 598303571, 277410714, 197187500, 357633929, 223928571, 197187500, 223928571,
   250669643, 304151786, 6000000000, 6000000000, 6000000000, 6000000000, 6000000000, 6000000000,
   6000000000, 6000000000, 6000000000, 6000000000, 6000000000, 6000000000, 6000000000, 6000000000,
   6000000000]
/-- `data/wfpair.py:40-3730 _wfpair`, row 84 -/
def wfpair84 : List Nat := [0, 1774910714, 6000000000, 384375000, 223928571, 1454017857,
   1373794643, 2069062500, 6000000000, 6000000000, 6000000000, 197187500, 90223214, 1908616071,
   1694687500, 2710848214, 6000000000, 6000000000, 6000000000, 63482143, 357633929, 223928571,
   250669643, 197187500, 330892857, 197187500, 197187500, 357633929, 411116071, 865714286,
   437857143, 1721428571, 1801651786, 2951517857, 6000000000, 6000000000, 6000000000, 63482143,
   330892857, 223928571, 250669643, 250669643, 384375000, 143705357, 197187500, 330892857,
   411116071, 892455357, 464598214, 1641205357, 1400535714, 2844553571, 4047901786, 5491919643,
   6000000000, 63482143, 330892857, 197187500, 4903616071, 170446429, 170446429, 170446429,
   170446429, 223928571, 223928571, 197187500, 197187500, 170446429, 170446429, 170446429,
   197187500, 197187500, 411116071, 357633929, 170446429, 170446429, 223928571, 464598214,
   651785714, 2122544643, 705267857, 1427276786, 1106383929, 2523660714, 3727008929, 5090803571,
   5491919643, 304151786, 330892857, 277410714, 785491071, 223928571, 330892857, 277410714,
   250669643, 758750000, 304151786, 945937500, 384375000, 223928571, 223928571, 1881875000,
   277410714, 330892857, 6000000000, 6000000000, 6000000000, 6000000000, 6000000000, 6000000000,
   6000000000, 6000000000, 6000000000, 6000000000, 6000000000, 6000000000, 6000000000, 6000000000,
   6000000000]
/-- `data/wfpair.py:40-3730 _wfpair`, row 85 -/
def wfpair85 : List Nat := [0, 1881875000, 6000000000, 384375000, 250669643, 1721428571,
   1427276786, 2176026786, 6000000000, 6000000000, 6000000000, 197187500, 90223214, 1988839286,
   2042321429, 2791071429, 6000000000, 6000000000, 6000000000, 63482143, 411116071, 250669643,
   277410714, 197187500, 357633929, 197187500, 223928571, 384375000, 411116071, 945937500,
   464598214, 1748169643, 2256250000, 3031741071, 6000000000, 6000000000, 6000000000, 63482143,
   357633929, 250669643, 277410714, 277410714, 411116071, 143705357, 197187500, 357633929,
   437857143, 972678571, 491339286, 1721428571, 1855133929, 2924776786, 5732589286, 6000000000,
   6000000000, 63482143, 357633929, 223928571, 6000000000, 170446429, 170446429, 170446429,
   170446429, 250669643, 223928571, 197187500, 197187500, 197187500, 197187500, 197187500,
   197187500, 223928571, 464598214, 384375000, 197187500, 170446429, 223928571, 518080357,
   651785714, 3138705357, 758750000, 1454017857, 1560982143, 2951517857, 5090803571, 6000000000,
   6000000000, 330892857, 357633929, 304151786, 785491071, 250669643, 357633929, 304151786,
   250669643, 838973214, 330892857, 892455357, 411116071, 250669643, 250669643, 1801651786,
   304151786, 357633929, 6000000000, 6000000000, 6000000000, 6000000000, 6000000000, 6000000000,
   6000000000, 6000000000, 6000000000, 6000000000, 6000000000, 6000000000, 6000000000, 6000000000,
   6000000000]
/-- `data/wfpair.py:40-3730 _wfpair`, row 86 -/
def wfpair86 : List Nat := [0, 1935357143, 6000000000, 437857143, 250669643, 1641205357,
   1507500000, 2229508929, 6000000000, 6000000000, 6000000000, 223928571, 116964286, 2069062500,
   1801651786, 2951517857, 6000000000, 6000000000, 6000000000, 90223214, 411116071, 277410714,
   304151786, 223928571, 357633929, 197187500, 223928571, 411116071, 437857143, 972678571,
   491339286, 1881875000, 1855133929, 3192187500, 6000000000, 6000000000, 6000000000, 63482143,
   384375000, 250669643, 304151786, 304151786, 437857143, 143705357, 223928571, 384375000,
   437857143, 999419643, 518080357, 1801651786, 1480758929, 3058482143, 6000000000, 6000000000,
   6000000000, 63482143, 384375000, 223928571, 6000000000, 170446429, 197187500, 197187500,
   197187500, 277410714, 223928571, 197187500, 223928571, 197187500, 197187500, 197187500,
   223928571, 223928571, 464598214, 411116071, 197187500, 170446429, 250669643, 544821429,
   705267857, 2229508929, 785491071, 1587723214, 1240089286, 2389955357, 5491919643, 6000000000,
   6000000000, 357633929, 2229508929, 304151786, 812232143, 865714286, 384375000, 357633929,
   277410714, 838973214, 357633929, 972678571, 437857143, 277410714, 250669643, 1962098214,
   330892857, 384375000, 6000000000, 6000000000, 6000000000, 6000000000, 6000000000, 6000000000,
   6000000000, 6000000000, 6000000000, 6000000000, 6000000000, 6000000000, 6000000000, 6000000000,
   6000000000]
/-- `data/wfpair.py:40-3730 _wfpair`, row 87 -/
def wfpair87 : List Nat := [0, 785491071, 1748169643, 90223214, 197187500, 357633929, 838973214,
   865714286, 945937500, 1106383929, 1320312500, 170446429, 90223214, 197187500, 304151786,
   411116071, 491339286, 571562500, 651785714, 36741071, 116964286, 90223214, 90223214, 90223214,
   170446429, 143705357, 170446429, 170446429, 170446429, 250669643, 197187500, 250669643,
   277410714, 357633929, 411116071, 464598214, 518080357, 36741071, 116964286, 116964286, 90223214,
   116964286, 170446429, 90223214, 170446429, 143705357, 197187500, 250669643, 197187500,
   197187500, 223928571, 304151786, 330892857, 357633929, 411116071, 36741071, 116964286, 90223214,
   304151786, 63482143, 63482143, 63482143, 63482143, 90223214, 90223214, 63482143, 90223214,
   90223214, 90223214, 90223214, 90223214, 90223214, 116964286, 143705357, 143705357, 116964286,
   170446429, 197187500, 277410714, 330892857, 277410714, 197187500, 223928571, 277410714,
   304151786, 330892857, 357633929, 63482143, 90223214, 116964286, 90223214, 90223214, 116964286,
   90223214, 116964286, 143705357, 143705357, 90223214, 143705357, 116964286, 90223214, 116964286,
   143705357, 116964286, 6000000000, 6000000000, 6000000000, 6000000000, 6000000000, 6000000000,
   6000000000, 6000000000, 6000000000, 6000000000, 6000000000, 6000000000, 6000000000, 6000000000,
   6000000000]
/-- `data/wfpair.py:40-3730 _wfpair`, row 88 -/
def wfpair88 : List Nat := [0, 812232143, 3218928571, 116964286, 197187500, 384375000, 999419643,
   999419643, 2496919643, 2496919643, 2871294643, 170446429, 90223214, 223928571, 304151786,
   437857143, 518080357, 2176026786, 2363214286, 36741071, 143705357, 116964286, 116964286,
   90223214, 197187500, 143705357, 170446429, 170446429, 197187500, 277410714, 223928571,
   250669643, 304151786, 2176026786, 464598214, 518080357, 2282991071, 36741071, 116964286,
   116964286, 116964286, 116964286, 197187500, 90223214, 170446429, 170446429, 197187500,
   277410714, 223928571, 197187500, 250669643, 304151786, 357633929, 411116071, 2256250000,
   36741071, 116964286, 116964286, 357633929, 90223214, 90223214, 90223214, 90223214, 116964286,
   116964286, 90223214, 90223214, 90223214, 90223214, 90223214, 90223214, 116964286, 116964286,
   143705357, 143705357, 116964286, 170446429, 197187500, 304151786, 357633929, 304151786,
   223928571, 223928571, 277410714, 330892857, 357633929, 2229508929, 90223214, 116964286,
   116964286, 116964286, 90223214, 143705357, 116964286, 116964286, 170446429, 143705357, 90223214,
   143705357, 116964286, 116964286, 116964286, 143705357, 143705357, 6000000000, 6000000000,
   6000000000, 6000000000, 6000000000, 6000000000, 6000000000, 6000000000, 6000000000, 6000000000,
   6000000000, 6000000000, 6000000000, 6000000000, 6000000000]
/-- `data/wfpair.py:40-3730 _wfpair`, row 89 -/
def wfpair89 : List Nat := [0, 785491071, 1988839286, 223928571, 170446429, 357633929, 705267857,
   838973214, 1052901786, 1400535714, 1534241071, 170446429, 90223214, 223928571, 277410714,
   357633929, 437857143, 518080357, 598303571, 36741071, 143705357, 143705357, 143705357,
   116964286, 223928571, 116964286, 143705357, 197187500, 223928571, 277410714, 250669643,
   250669643, 277410714, 330892857, 384375000, 411116071, 464598214, 36741071, 143705357,
   116964286, 143705357, 143705357, 223928571, 90223214, 143705357, 197187500, 223928571,
   277410714, 250669643, 197187500, 223928571, 277410714, 304151786, 330892857, 357633929,
   36741071, 116964286, 90223214, 277410714, 116964286, 116964286, 116964286, 116964286, 143705357,
   143705357, 143705357, 143705357, 143705357, 143705357, 143705357, 143705357, 143705357,
   170446429, 170446429, 116964286, 116964286, 143705357, 223928571, 304151786, 304151786,
   304151786, 197187500, 223928571, 250669643, 277410714, 304151786, 304151786, 116964286,
   116964286, 116964286, 116964286, 116964286, 197187500, 116964286, 116964286, 197187500,
   143705357, 116964286, 223928571, 116964286, 116964286, 116964286, 116964286, 143705357,
   6000000000, 6000000000, 6000000000, 6000000000, 6000000000, 6000000000, 6000000000, 6000000000,
   6000000000, 6000000000, 6000000000, 6000000000, 6000000000, 6000000000, 6000000000]
/-- `data/wfpair.py:40-3730 _wfpair`, row 90 -/
def wfpair90 : List Nat := [0, 1106383929, 2791071429, 197187500, 223928571, 437857143, 919196429,
   1427276786, 1587723214, 1855133929, 2095803571, 170446429, 90223214, 197187500, 277410714,
   972678571, 999419643, 1052901786, 1159866071, 63482143, 143705357, 116964286, 116964286,
   116964286, 197187500, 170446429, 197187500, 170446429, 197187500, 250669643, 223928571,
   223928571, 892455357, 919196429, 892455357, 945937500, 1026160714, 36741071, 116964286,
   116964286, 116964286, 116964286, 170446429, 116964286, 197187500, 170446429, 197187500,
   250669643, 223928571, 197187500, 223928571, 838973214, 785491071, 812232143, 865714286,
   36741071, 116964286, 90223214, 785491071, 116964286, 116964286, 116964286, 116964286, 116964286,
   116964286, 116964286, 116964286, 116964286, 116964286, 116964286, 116964286, 143705357,
   143705357, 143705357, 170446429, 143705357, 197187500, 197187500, 277410714, 838973214,
   277410714, 197187500, 197187500, 812232143, 785491071, 785491071, 812232143, 90223214,
   116964286, 116964286, 116964286, 90223214, 170446429, 116964286, 116964286, 170446429,
   143705357, 90223214, 170446429, 116964286, 116964286, 116964286, 116964286, 143705357,
   6000000000, 6000000000, 6000000000, 6000000000, 6000000000, 6000000000, 6000000000, 6000000000,
   6000000000, 6000000000, 6000000000, 6000000000, 6000000000, 6000000000, 6000000000]
/-- `data/wfpair.py:40-3730 _wfpair`, row 91 -/
def wfpair91 : List Nat := [0, 1079642857, 3780491071, 170446429, 223928571, 357633929, 838973214,
   1694687500, 2042321429, 2389955357, 2737589286, 143705357, 90223214, 197187500, 732008929,
   919196429, 1186607143, 1293571429, 1454017857, 63482143, 116964286, 116964286, 116964286,
   116964286, 170446429, 170446429, 197187500, 170446429, 170446429, 223928571, 197187500,
   197187500, 865714286, 945937500, 892455357, 999419643, 1240089286, 63482143, 116964286,
   116964286, 116964286, 116964286, 170446429, 116964286, 170446429, 143705357, 170446429,
   223928571, 197187500, 170446429, 785491071, 945937500, 250669643, 812232143, 945937500,
   36741071, 90223214, 90223214, 250669643, 90223214, 90223214, 90223214, 90223214, 116964286,
   116964286, 116964286, 116964286, 116964286, 116964286, 116964286, 116964286, 116964286,
   116964286, 143705357, 170446429, 143705357, 170446429, 170446429, 250669643, 945937500,
   250669643, 170446429, 170446429, 972678571, 223928571, 250669643, 865714286, 90223214, 90223214,
   116964286, 90223214, 90223214, 170446429, 116964286, 116964286, 143705357, 116964286, 90223214,
   170446429, 116964286, 116964286, 116964286, 116964286, 143705357, 6000000000, 6000000000,
   6000000000, 6000000000, 6000000000, 6000000000, 6000000000, 6000000000, 6000000000, 6000000000,
   6000000000, 6000000000, 6000000000, 6000000000, 6000000000]
/-- `data/wfpair.py:40-3730 _wfpair`, row 92 -/
def wfpair92 : List Nat := [0, 892455357, 1240089286, 197187500, 223928571, 411116071, 518080357,
   678526786, 732008929, 865714286, 919196429, 197187500, 90223214, 250669643, 357633929,
   384375000, 437857143, 518080357, 544821429, 63482143, 170446429, 170446429, 143705357,
   170446429, 223928571, 197187500, 197187500, 223928571, 223928571, 304151786, 277410714,
   304151786, 330892857, 384375000, 411116071, 464598214, 464598214, 63482143, 143705357,
   223928571, 170446429, 170446429, 223928571, 143705357, 197187500, 223928571, 250669643,
   304151786, 277410714, 250669643, 304151786, 330892857, 357633929, 384375000, 411116071,
   36741071, 143705357, 223928571, 330892857, 116964286, 116964286, 116964286, 116964286,
   143705357, 143705357, 116964286, 116964286, 116964286, 116964286, 116964286, 143705357,
   143705357, 170446429, 197187500, 170446429, 170446429, 197187500, 277410714, 330892857,
   357633929, 330892857, 250669643, 277410714, 304151786, 330892857, 357633929, 384375000,
   116964286, 143705357, 197187500, 170446429, 170446429, 223928571, 170446429, 277410714,
   250669643, 223928571, 170446429, 223928571, 411116071, 197187500, 197187500, 223928571,
   250669643, 6000000000, 6000000000, 6000000000, 6000000000, 6000000000, 6000000000, 6000000000,
   6000000000, 6000000000, 6000000000, 6000000000, 6000000000, 6000000000, 6000000000, 6000000000]
/-- `data/wfpair.py:40-3730 _wfpair`, row 93 -/
def wfpair93 : List Nat := [0, 1293571429, 3245669643, 170446429, 223928571, 919196429, 812232143,
   1480758929, 1828392857, 2149285714, 2470178571, 143705357, 90223214, 1079642857, 785491071,
   625044643, 758750000, 865714286, 1026160714, 63482143, 143705357, 143705357, 143705357,
   116964286, 197187500, 170446429, 197187500, 197187500, 197187500, 250669643, 223928571,
   1855133929, 277410714, 411116071, 571562500, 678526786, 838973214, 63482143, 116964286,
   116964286, 143705357, 143705357, 170446429, 116964286, 197187500, 170446429, 197187500,
   250669643, 223928571, 892455357, 223928571, 277410714, 304151786, 384375000, 544821429,
   36741071, 116964286, 116964286, 277410714, 116964286, 116964286, 116964286, 116964286,
   116964286, 143705357, 116964286, 116964286, 116964286, 116964286, 116964286, 116964286,
   143705357, 143705357, 143705357, 170446429, 143705357, 197187500, 197187500, 812232143,
   330892857, 277410714, 197187500, 838973214, 250669643, 277410714, 304151786, 357633929,
   90223214, 116964286, 116964286, 116964286, 116964286, 170446429, 116964286, 116964286,
   170446429, 143705357, 116964286, 197187500, 143705357, 116964286, 116964286, 143705357,
   143705357, 6000000000, 6000000000, 6000000000, 6000000000, 6000000000, 6000000000, 6000000000,
   6000000000, 6000000000, 6000000000, 6000000000, 6000000000, 6000000000, 6000000000, 6000000000]
/-- `data/wfpair.py:40-3730 _wfpair`, row 94 -/
def wfpair94 : List Nat := [0, 758750000, 2710848214, 197187500, 197187500, 330892857, 544821429,
   678526786, 812232143, 1801651786, 2042321429, 170446429, 90223214, 197187500, 250669643,
   330892857, 357633929, 437857143, 491339286, 63482143, 143705357, 143705357, 143705357,
   116964286, 197187500, 170446429, 197187500, 197187500, 223928571, 250669643, 250669643,
   223928571, 250669643, 304151786, 330892857, 357633929, 384375000, 63482143, 143705357,
   116964286, 143705357, 143705357, 197187500, 116964286, 170446429, 197187500, 223928571,
   250669643, 223928571, 197187500, 223928571, 250669643, 250669643, 277410714, 304151786,
   36741071, 116964286, 116964286, 250669643, 116964286, 143705357, 143705357, 143705357,
   143705357, 170446429, 143705357, 143705357, 143705357, 143705357, 143705357, 143705357,
   170446429, 170446429, 170446429, 143705357, 143705357, 197187500, 197187500, 250669643,
   277410714, 277410714, 197187500, 197187500, 223928571, 250669643, 250669643, 277410714,
   116964286, 116964286, 116964286, 116964286, 116964286, 277410714, 116964286, 116964286,
   197187500, 143705357, 116964286, 250669643, 116964286, 116964286, 116964286, 143705357,
   143705357, 6000000000, 6000000000, 6000000000, 6000000000, 6000000000, 6000000000, 6000000000,
   6000000000, 6000000000, 6000000000, 6000000000, 6000000000, 6000000000, 6000000000, 6000000000]
/-- `data/wfpair.py:40-3730 _wfpair`, row 95 -/
def wfpair95 : List Nat := [0, 1828392857, 2443437500, 277410714, 197187500, 732008929, 1347053571,
   1240089286, 1400535714, 1748169643, 1935357143, 197187500, 90223214, 357633929, 625044643,
   838973214, 919196429, 1133125000, 1159866071, 63482143, 197187500, 170446429, 170446429,
   143705357, 277410714, 143705357, 170446429, 277410714, 277410714, 464598214, 330892857,
   437857143, 625044643, 838973214, 919196429, 999419643, 999419643, 36741071, 170446429,
   197187500, 197187500, 197187500, 277410714, 116964286, 170446429, 250669643, 304151786,
   437857143, 330892857, 357633929, 571562500, 651785714, 758750000, 838973214, 945937500,
   36741071, 170446429, 170446429, 705267857, 143705357, 143705357, 143705357, 143705357,
   170446429, 170446429, 143705357, 143705357, 143705357, 143705357, 143705357, 170446429,
   170446429, 223928571, 250669643, 143705357, 143705357, 170446429, 330892857, 571562500,
   732008929, 518080357, 357633929, 411116071, 598303571, 758750000, 838973214, 838973214,
   143705357, 170446429, 197187500, 170446429, 143705357, 250669643, 170446429, 197187500,
   277410714, 223928571, 143705357, 277410714, 197187500, 170446429, 170446429, 197187500,
   250669643, 6000000000, 6000000000, 6000000000, 6000000000, 6000000000, 6000000000, 6000000000,
   6000000000, 6000000000, 6000000000, 6000000000, 6000000000, 6000000000, 6000000000, 6000000000]
/-- `data/wfpair.py:40-3730 _wfpair`, row 96 -/
def wfpair96 : List Nat := [0, 945937500, 2550401786, 250669643, 197187500, 411116071, 1186607143,
   1266830357, 1507500000, 1694687500, 1935357143, 197187500, 90223214, 250669643, 330892857,
   411116071, 491339286, 571562500, 651785714, 63482143, 170446429, 170446429, 170446429,
   143705357, 250669643, 143705357, 170446429, 223928571, 250669643, 304151786, 277410714,
   277410714, 330892857, 384375000, 411116071, 464598214, 518080357, 36741071, 170446429,
   143705357, 170446429, 170446429, 250669643, 116964286, 170446429, 223928571, 250669643,
   304151786, 277410714, 250669643, 277410714, 304151786, 330892857, 357633929, 384375000,
   36741071, 143705357, 116964286, 330892857, 143705357, 143705357, 143705357, 143705357,
   170446429, 170446429, 170446429, 170446429, 170446429, 170446429, 170446429, 170446429,
   170446429, 197187500, 197187500, 143705357, 143705357, 170446429, 250669643, 330892857,
   357633929, 330892857, 250669643, 250669643, 277410714, 304151786, 330892857, 357633929,
   143705357, 143705357, 143705357, 143705357, 116964286, 223928571, 143705357, 143705357,
   223928571, 143705357, 116964286, 277410714, 143705357, 143705357, 143705357, 143705357,
   170446429, 6000000000, 6000000000, 6000000000, 6000000000, 6000000000, 6000000000, 6000000000,
   6000000000, 6000000000, 6000000000, 6000000000, 6000000000, 6000000000, 6000000000, 6000000000]
/-- `data/wfpair.py:40-3730 _wfpair`, row 97 -/
def wfpair97 : List Nat := [0, 1079642857, 3593303571, 143705357, 223928571, 357633929, 1026160714,
   1587723214, 2149285714, 2309732143, 2844553571, 143705357, 90223214, 197187500, 250669643,
   999419643, 1133125000, 1266830357, 1373794643, 63482143, 116964286, 116964286, 116964286,
   116964286, 170446429, 170446429, 197187500, 170446429, 170446429, 223928571, 197187500,
   197187500, 223928571, 999419643, 1026160714, 999419643, 1159866071, 63482143, 116964286,
   116964286, 116964286, 116964286, 170446429, 143705357, 170446429, 170446429, 170446429,
   223928571, 197187500, 170446429, 197187500, 838973214, 972678571, 945937500, 1026160714,
   36741071, 90223214, 90223214, 972678571, 90223214, 90223214, 90223214, 90223214, 116964286,
   116964286, 116964286, 116964286, 116964286, 116964286, 116964286, 116964286, 116964286,
   116964286, 143705357, 170446429, 170446429, 170446429, 170446429, 223928571, 838973214,
   250669643, 1828392857, 170446429, 197187500, 945937500, 892455357, 972678571, 90223214,
   90223214, 116964286, 90223214, 90223214, 170446429, 116964286, 116964286, 143705357, 116964286,
   90223214, 170446429, 116964286, 116964286, 116964286, 116964286, 143705357, 6000000000,
   6000000000, 6000000000, 6000000000, 6000000000, 6000000000, 6000000000, 6000000000, 6000000000,
   6000000000, 6000000000, 6000000000, 6000000000, 6000000000, 6000000000]
/-- `data/wfpair.py:40-3730 _wfpair`, row 98 -/
def wfpair98 : List Nat := [0, 2924776786, 3459598214, 250669643, 197187500, 705267857, 812232143,
   1774910714, 2042321429, 2336473214, 2710848214, 197187500, 90223214, 304151786, 437857143,
   518080357, 598303571, 732008929, 892455357, 63482143, 170446429, 170446429, 170446429,
   170446429, 250669643, 170446429, 197187500, 250669643, 277410714, 357633929, 304151786,
   330892857, 411116071, 464598214, 491339286, 544821429, 651785714, 36741071, 170446429,
   250669643, 170446429, 197187500, 250669643, 116964286, 170446429, 250669643, 277410714,
   357633929, 304151786, 277410714, 330892857, 384375000, 384375000, 437857143, 491339286,
   36741071, 170446429, 197187500, 384375000, 143705357, 143705357, 143705357, 143705357,
   143705357, 170446429, 143705357, 143705357, 143705357, 143705357, 143705357, 143705357,
   170446429, 197187500, 223928571, 143705357, 143705357, 197187500, 304151786, 384375000,
   437857143, 384375000, 304151786, 330892857, 357633929, 384375000, 411116071, 437857143,
   143705357, 143705357, 223928571, 170446429, 170446429, 223928571, 197187500, 250669643,
   277410714, 277410714, 170446429, 223928571, 223928571, 170446429, 197187500, 223928571,
   384375000, 6000000000, 6000000000, 6000000000, 6000000000, 6000000000, 6000000000, 6000000000,
   6000000000, 6000000000, 6000000000, 6000000000, 6000000000, 6000000000, 6000000000, 6000000000]
/-- `data/wfpair.py:40-3730 _wfpair`, row 99 -/
def wfpair99 : List Nat := [0, 732008929, 2764330357, 197187500, 197187500, 330892857, 1774910714,
   2042321429, 732008929, 2122544643, 2336473214, 170446429, 90223214, 223928571, 250669643,
   304151786, 357633929, 411116071, 464598214, 63482143, 143705357, 143705357, 170446429,
   143705357, 197187500, 143705357, 170446429, 197187500, 223928571, 250669643, 250669643,
   223928571, 250669643, 277410714, 304151786, 330892857, 384375000, 36741071, 143705357,
   116964286, 143705357, 170446429, 197187500, 116964286, 170446429, 197187500, 223928571,
   223928571, 223928571, 197187500, 223928571, 250669643, 250669643, 277410714, 304151786,
   36741071, 116964286, 116964286, 250669643, 143705357, 143705357, 143705357, 143705357,
   143705357, 170446429, 143705357, 143705357, 143705357, 143705357, 143705357, 143705357,
   170446429, 170446429, 170446429, 143705357, 143705357, 170446429, 223928571, 250669643,
   277410714, 250669643, 197187500, 197187500, 223928571, 223928571, 250669643, 277410714,
   116964286, 116964286, 116964286, 116964286, 116964286, 411116071, 143705357, 116964286,
   197187500, 143705357, 116964286, 223928571, 143705357, 116964286, 143705357, 143705357,
   143705357, 6000000000, 6000000000, 6000000000, 6000000000, 6000000000, 6000000000, 6000000000,
   6000000000, 6000000000, 6000000000, 6000000000, 6000000000, 6000000000, 6000000000, 6000000000]
/-- `data/wfpair.py:40-3730 _wfpair`, row 100 -/
def wfpair100 : List Nat := [0, 1052901786, 3620044643, 170446429, 197187500, 357633929,
   1454017857, 1881875000, 2550401786, 2550401786, 3031741071, 143705357, 90223214, 197187500,
   250669643, 304151786, 411116071, 945937500, 1320312500, 63482143, 116964286, 143705357,
   143705357, 116964286, 170446429, 170446429, 170446429, 170446429, 197187500, 223928571,
   223928571, 197187500, 223928571, 277410714, 330892857, 384375000, 598303571, 36741071,
   116964286, 116964286, 143705357, 143705357, 170446429, 116964286, 170446429, 170446429,
   197187500, 223928571, 197187500, 170446429, 197187500, 223928571, 250669643, 250669643,
   304151786, 36741071, 116964286, 116964286, 223928571, 116964286, 116964286, 116964286,
   116964286, 116964286, 143705357, 116964286, 116964286, 116964286, 116964286, 116964286,
   116964286, 143705357, 143705357, 143705357, 143705357, 143705357, 197187500, 197187500,
   223928571, 250669643, 250669643, 170446429, 197187500, 197187500, 223928571, 250669643,
   250669643, 90223214, 116964286, 116964286, 116964286, 116964286, 197187500, 116964286,
   116964286, 170446429, 143705357, 116964286, 170446429, 116964286, 116964286, 116964286,
   116964286, 143705357, 6000000000, 6000000000, 6000000000, 6000000000, 6000000000, 6000000000,
   6000000000, 6000000000, 6000000000, 6000000000, 6000000000, 6000000000, 6000000000, 6000000000,
   6000000000]
/-- `data/wfpair.py:40-3730 _wfpair`, row 101 -/
def wfpair101 : List Nat := [0, 1079642857, 3673526786, 197187500, 197187500, 384375000,
   1427276786, 1855133929, 2523660714, 2523660714, 3031741071, 170446429, 90223214, 223928571,
   277410714, 357633929, 1962098214, 1988839286, 2149285714, 63482143, 143705357, 143705357,
   143705357, 116964286, 197187500, 170446429, 197187500, 197187500, 197187500, 250669643,
   250669643, 223928571, 250669643, 1935357143, 1881875000, 1828392857, 2069062500, 36741071,
   116964286, 116964286, 143705357, 143705357, 197187500, 116964286, 170446429, 170446429,
   197187500, 250669643, 223928571, 1908616071, 223928571, 250669643, 1935357143, 1881875000,
   1962098214, 36741071, 116964286, 116964286, 1881875000, 116964286, 116964286, 116964286,
   116964286, 116964286, 143705357, 116964286, 143705357, 143705357, 143705357, 143705357,
   143705357, 143705357, 143705357, 170446429, 143705357, 143705357, 197187500, 197187500,
   277410714, 304151786, 277410714, 197187500, 197187500, 223928571, 1881875000, 1801651786,
   1962098214, 116964286, 116964286, 116964286, 116964286, 116964286, 197187500, 116964286,
   116964286, 170446429, 143705357, 116964286, 197187500, 143705357, 116964286, 116964286,
   143705357, 143705357, 6000000000, 6000000000, 6000000000, 6000000000, 6000000000, 6000000000,
   6000000000, 6000000000, 6000000000, 6000000000, 6000000000, 6000000000, 6000000000, 6000000000,
   6000000000]
/-- `data/wfpair.py:40-3730 _wfpair`, row 102 -/
def wfpair102 : List Nat := [0, 1106383929, 3700267857, 223928571, 197187500, 411116071,
   1507500000, 1881875000, 2470178571, 2603883929, 3005000000, 143705357, 90223214, 223928571,
   304151786, 384375000, 1721428571, 1881875000, 1935357143, 63482143, 170446429, 143705357,
   170446429, 143705357, 223928571, 143705357, 170446429, 223928571, 223928571, 277410714,
   250669643, 1908616071, 277410714, 357633929, 1694687500, 1694687500, 1855133929, 36741071,
   143705357, 143705357, 170446429, 170446429, 197187500, 116964286, 170446429, 197187500,
   223928571, 277410714, 250669643, 223928571, 250669643, 277410714, 304151786, 330892857,
   384375000, 36741071, 143705357, 116964286, 304151786, 143705357, 143705357, 143705357,
   143705357, 143705357, 170446429, 170446429, 170446429, 170446429, 170446429, 170446429,
   170446429, 170446429, 170446429, 170446429, 143705357, 116964286, 170446429, 223928571,
   277410714, 330892857, 304151786, 223928571, 223928571, 250669643, 277410714, 304151786,
   330892857, 143705357, 143705357, 116964286, 116964286, 116964286, 223928571, 143705357,
   143705357, 197187500, 143705357, 116964286, 223928571, 143705357, 116964286, 143705357,
   143705357, 170446429, 6000000000, 6000000000, 6000000000, 6000000000, 6000000000, 6000000000,
   6000000000, 6000000000, 6000000000, 6000000000, 6000000000, 6000000000, 6000000000, 6000000000,
   6000000000]
/-- `data/wfpair.py:40-3730 _wfpair`, row 103 -/
def wfpair103 : List Nat := [0, 1079642857, 2550401786, 223928571, 170446429, 464598214,
   1106383929, 1320312500, 1507500000, 1774910714, 1935357143, 170446429, 90223214, 277410714,
   357633929, 437857143, 518080357, 625044643, 732008929, 36741071, 170446429, 170446429,
   197187500, 143705357, 250669643, 143705357, 170446429, 250669643, 277410714, 330892857,
   304151786, 304151786, 357633929, 411116071, 464598214, 518080357, 571562500, 36741071,
   170446429, 143705357, 197187500, 170446429, 250669643, 116964286, 170446429, 223928571,
   277410714, 304151786, 304151786, 250669643, 304151786, 330892857, 357633929, 384375000,
   437857143, 36741071, 143705357, 116964286, 357633929, 143705357, 170446429, 170446429,
   170446429, 170446429, 197187500, 170446429, 170446429, 170446429, 170446429, 170446429,
   170446429, 197187500, 223928571, 223928571, 143705357, 116964286, 170446429, 277410714,
   357633929, 357633929, 357633929, 250669643, 277410714, 304151786, 330892857, 357633929,
   384375000, 116964286, 143705357, 143705357, 143705357, 143705357, 250669643, 143705357,
   143705357, 250669643, 170446429, 143705357, 384375000, 143705357, 143705357, 143705357,
   170446429, 143705357, 6000000000, 6000000000, 6000000000, 6000000000, 6000000000, 6000000000,
   6000000000, 6000000000, 6000000000, 6000000000, 6000000000, 6000000000, 6000000000, 6000000000,
   6000000000]
/-- `data/wfpair.py:40-3730 _wfpair`, row 104 -/
def wfpair104 : List Nat := [0, 6000000000, 6000000000, 6000000000, 6000000000, 6000000000,
   6000000000, 6000000000, 6000000000, 6000000000, 6000000000, 6000000000, 6000000000, 6000000000,
   6000000000, 6000000000, 6000000000, 6000000000, 6000000000, 6000000000, 6000000000, 6000000000,
   6000000000, 6000000000, 6000000000, 6000000000, 6000000000, 6000000000, 6000000000, 6000000000,
   6000000000, 6000000000, 6000000000, 6000000000, 6000000000, 6000000000, 6000000000, 6000000000,
   6000000000, 6000000000, 6000000000, 6000000000, 6000000000, 6000000000, 6000000000, 6000000000,
   6000000000, 6000000000, 6000000000, 6000000000, 6000000000, 6000000000, 6000000000, 6000000000,
   6000000000, 6000000000, 6000000000, 6000000000, 6000000000, 6000000000, 6000000000, 6000000000,
   6000000000, 6000000000, 6000000000, 6000000000, 6000000000, 6000000000, 6000000000, 6000000000,
   6000000000, 6000000000, 6000000000, 6000000000, 6000000000, 6000000000, 6000000000, 6000000000,
   6000000000, 6000000000, 6000000000, 6000000000, 6000000000, 6000000000, 6000000000, 6000000000,
   6000000000, 6000000000, 6000000000, 6000000000, 6000000000, 6000000000, 6000000000, 6000000000,
   6000000000, 6000000000, 6000000000, 6000000000, 6000000000, 6000000000, 6000000000, 6000000000,
   6000000000, 6000000000, 6000000000, 6000000000, 6000000000, 6000000000, 6000000000, 6000000000,
   6000000000, 6000000000, 6000000000, 6000000000, 6000000000, 6000000000, 6000000000, 6000000000,
   6000000000]
/-- `data/wfpair.py:40-3730 _wfpair`, row 105 -/
def wfpair105 : List Nat := [0, 6000000000, 6000000000, 6000000000, 6000000000, 6000000000,
   6000000000, 6000000000, 6000000000, 6000000000, 6000000000, 6000000000, 6000000000, 6000000000,
   6000000000, 6000000000, 6000000000, 6000000000, 6000000000, 6000000000, 6000000000, 6000000000,
   6000000000, 6000000000, 6000000000, 6000000000, 6000000000, 6000000000, 6000000000, 6000000000,
   6000000000, 6000000000, 6000000000, 6000000000, 6000000000, 6000000000, 6000000000, 6000000000,
   6000000000, 6000000000, 6000000000, 6000000000, 6000000000, 6000000000, 6000000000, 6000000000,
   6000000000, 6000000000, 6000000000, 6000000000, 6000000000, 6000000000, 6000000000, 6000000000,
   6000000000, 6000000000, 6000000000, 6000000000, 6000000000, 6000000000, 6000000000, 6000000000,
   6000000000, 6000000000, 6000000000, 6000000000, 6000000000, 6000000000, 6000000000, 6000000000,
   6000000000, 6000000000, 6000000000, 6000000000, 6000000000, 6000000000, 6000000000, 6000000000,
   6000000000, 6000000000, 6000000000, 6000000000, 6000000000, 6000000000, 6000000000, 6000000000,
   6000000000, 6000000000, 6000000000, 6000000000, 6000000000, 6000000000, 6000000000, 6000000000,
   6000000000, 6000000000, 6000000000, 6000000000, 6000000000, 6000000000, 6000000000, 6000000000,
   6000000000, 6000000000, 6000000000, 6000000000, 6000000000, 6000000000, 6000000000, 6000000000,
   6000000000, 6000000000, 6000000000, 6000000000, 6000000000, 6000000000, 6000000000, 6000000000,
   6000000000]
/-- `data/wfpair.py:40-3730 _wfpair`, row 106 -/
def wfpair106 : List Nat := [0, 6000000000, 6000000000, 6000000000, 6000000000, 6000000000,
   6000000000, 6000000000, 6000000000, 6000000000, 6000000000, 6000000000, 6000000000, 6000000000,
   6000000000, 6000000000, 6000000000, 6000000000, 6000000000, 6000000000, 6000000000, 6000000000,
   6000000000, 6000000000, 6000000000, 6000000000, 6000000000, 6000000000, 6000000000, 6000000000,
   6000000000, 6000000000, 6000000000, 6000000000, 6000000000, 6000000000, 6000000000, 6000000000,
   6000000000, 6000000000, 6000000000, 6000000000, 6000000000, 6000000000, 6000000000, 6000000000,
   6000000000, 6000000000, 6000000000, 6000000000, 6000000000, 6000000000, 6000000000, 6000000000,
   6000000000, 6000000000, 6000000000, 6000000000, 6000000000, 6000000000, 6000000000, 6000000000,
   6000000000, 6000000000, 6000000000, 6000000000, 6000000000, 6000000000, 6000000000, 6000000000,
   6000000000, 6000000000, 6000000000, 6000000000, 6000000000, 6000000000, 6000000000, 6000000000,
   6000000000, 6000000000, 6000000000, 6000000000, 6000000000, 6000000000, 6000000000, 6000000000,
   6000000000, 6000000000, 6000000000, 6000000000, 6000000000, 6000000000, 6000000000, 6000000000,
   6000000000, 6000000000, 6000000000, 6000000000, 6000000000, 6000000000, 6000000000, 6000000000,
   6000000000, 6000000000, 6000000000, 6000000000, 6000000000, 6000000000, 6000000000, 6000000000,
   6000000000, 6000000000, 6000000000, 6000000000, 6000000000, 6000000000, 6000000000, 6000000000,
   6000000000]
/-- `data/wfpair.py:40-3730 _wfpair`, row 107 -/
def wfpair107 : List Nat := [0, 6000000000, 6000000000, 6000000000, 6000000000, 6000000000,
   6000000000, 6000000000, 6000000000, 6000000000, 6000000000, 6000000000, 6000000000, 6000000000,
   6000000000, 6000000000, 6000000000, 6000000000, 6000000000, 6000000000, 6000000000, 6000000000,
   6000000000, 6000000000, 6000000000, 6000000000, 6000000000, 6000000000, 6000000000, 6000000000,
   6000000000, 6000000000, 6000000000, 6000000000, 6000000000, 6000000000, 6000000000, 6000000000,
   6000000000, 6000000000, 6000000000, 6000000000, 6000000000, 6000000000, 6000000000, 6000000000,
   6000000000, 6000000000, 6000000000, 6000000000, 6000000000, 6000000000, 6000000000, 6000000000,
   6000000000, 6000000000, 6000000000, 6000000000, 6000000000, 6000000000, 6000000000, 6000000000,
   6000000000, 6000000000, 6000000000, 6000000000, 6000000000, 6000000000, 6000000000, 6000000000,
   6000000000, 6000000000, 6000000000, 6000000000, 6000000000, 6000000000, 6000000000, 6000000000,
   6000000000, 6000000000, 6000000000, 6000000000, 6000000000, 6000000000, 6000000000, 6000000000,
   6000000000, 6000000000, 6000000000, 6000000000, 6000000000, 6000000000, 6000000000, 6000000000,
   6000000000, 6000000000, 6000000000, 6000000000, 6000000000, 6000000000, 6000000000, 6000000000,
   6000000000, 6000000000, 6000000000, 6000000000, 6000000000, 6000000000, 6000000000, 6000000000,
   6000000000, 6000000000, 6000000000, 6000000000, 6000000000, 6000000000, 6000000000, 6000000000,
   6000000000]
/-- `data/wfpair.py:40-3730 _wfpair`, row 108 -/
def wfpair108 : List Nat := [0, 6000000000, 6000000000, 6000000000, 6000000000, 6000000000,
   6000000000, 6000000000, 6000000000, 6000000000, 6000000000, 6000000000, 6000000000, 6000000000,
   6000000000, 6000000000, 6000000000, 6000000000, 6000000000, 6000000000, 6000000000, 6000000000,
   6000000000, 6000000000, 6000000000, 6000000000, 6000000000, 6000000000, 6000000000, 6000000000,
   6000000000, 6000000000, 6000000000, 6000000000, 6000000000, 6000000000, 6000000000, 6000000000,
   6000000000, 6000000000, 6000000000, 6000000000, 6000000000, 6000000000, 6000000000, 6000000000,
   6000000000, 6000000000, 6000000000, 6000000000, 6000000000, 6000000000, 6000000000, 6000000000,
   6000000000, 6000000000, 6000000000, 6000000000, 6000000000, 6000000000, 6000000000, 6000000000,
   6000000000, 6000000000, 6000000000, 6000000000, 6000000000, 6000000000, 6000000000, 6000000000,
   6000000000, 6000000000, 6000000000, 6000000000, 6000000000, 6000000000, 6000000000, 6000000000,
   6000000000, 6000000000, 6000000000, 6000000000, 6000000000, 6000000000, 6000000000, 6000000000,
   6000000000, 6000000000, 6000000000, 6000000000, 6000000000, 6000000000, 6000000000, 6000000000,
   6000000000, 6000000000, 6000000000, 6000000000, 6000000000, 6000000000, 6000000000, 6000000000,
   6000000000, 6000000000, 6000000000, 6000000000, 6000000000, 6000000000, 6000000000, 6000000000,
   6000000000, 6000000000, 6000000000, 6000000000, 6000000000, 6000000000, 6000000000, 6000000000,
   6000000000]
/-- `data/wfpair.py:40-3730 _wfpair`, row 109 -/
def wfpair109 : List Nat := [0, 6000000000, 6000000000, 6000000000, 6000000000, 6000000000,
   6000000000, 6000000000, 6000000000, 6000000000, 6000000000, 6000000000, 6000000000, 6000000000,
   6000000000, 6000000000, 6000000000, 6000000000, 6000000000, 6000000000, 6000000000, 6000000000,
   6000000000, 6000000000, 6000000000, 6000000000, 6000000000, 6000000000, 6000000000, 6000000000,
   6000000000, 6000000000, 6000000000, 6000000000, 6000000000, 6000000000, 6000000000, 6000000000,
   6000000000, 6000000000, 6000000000, 6000000000, 6000000000, 6000000000, 6000000000, 6000000000,
   6000000000, 6000000000, 6000000000, 6000000000, 6000000000, 6000000000, 6000000000, 6000000000,
   6000000000, 6000000000, 6000000000, 6000000000, 6000000000, 6000000000, 6000000000, 6000000000,
   6000000000, 6000000000, 6000000000, 6000000000, 6000000000, 6000000000, 6000000000, 6000000000,
   6000000000, 6000000000, 6000000000, 6000000000, 6000000000, 6000000000, 6000000000, 6000000000,
   6000000000, 6000000000, 6000000000, 6000000000, 6000000000, 6000000000, 6000000000, 6000000000,
   6000000000, 6000000000, 6000000000, 6000000000, 6000000000, 6000000000, 6000000000, 6000000000,
   6000000000, 6000000000, 6000000000, 6000000000, 6000000000, 6000000000, 6000000000, 6000000000,
   6000000000, 6000000000, 6000000000, 6000000000, 6000000000, 6000000000, 6000000000, 6000000000,
   6000000000, 6000000000, 6000000000, 6000000000, 6000000000, 6000000000, 6000000000, 6000000000,
   6000000000]
/-- `data/wfpair.py:40-3730 _wfpair`, row 110 -/
def wfpair110 : List Nat := [0, 6000000000, 6000000000, 6000000000, 6000000000, 6000000000,
   6000000000, 6000000000, 6000000000, 6000000000, 6000000000, 6000000000, 6000000000, 6000000000,
   6000000000, 6000000000, 6000000000, 6000000000, 6000000000, 6000000000, 6000000000, 6000000000,
   6000000000, 6000000000, 6000000000, 6000000000, 6000000000, 6000000000, 6000000000, 6000000000,
   6000000000, 6000000000, 6000000000, 6000000000, 6000000000, 6000000000, 6000000000, 6000000000,
   6000000000, 6000000000, 6000000000, 6000000000, 6000000000, 6000000000, 6000000000, 6000000000,
   6000000000, 6000000000, 6000000000, 6000000000, 6000000000, 6000000000, 6000000000, 6000000000,
   6000000000, 6000000000, 6000000000, 6000000000, 6000000000, 6000000000, 6000000000, 6000000000,
   6000000000, 6000000000, 6000000000, 6000000000, 6000000000, 6000000000, 6000000000, 6000000000,
   6000000000, 6000000000, 6000000000, 6000000000, 6000000000, 6000000000, 6000000000, 6000000000,
   6000000000, 6000000000, 6000000000, 6000000000, 6000000000, 6000000000, 6000000000, 6000000000,
   6000000000, 6000000000, 6000000000, 6000000000, 6000000000, 6000000000, 6000000000, 6000000000,
   6000000000, 6000000000, 6000000000, 6000000000, 6000000000, 6000000000, 6000000000, 6000000000,
   6000000000, 6000000000, 6000000000, 6000000000, 6000000000, 6000000000, 6000000000, 6000000000,
   6000000000, 6000000000, 6000000000, 6000000000, 6000000000, 6000000000, 6000000000, 6000000000,
   6000000000]
/-- `data/wfpair.py:40-3730 _wfpair`, row 111 -/
def wfpair111 : List Nat := [0, 6000000000, 6000000000, 6000000000, 6000000000, 6000000000,
   6000000000, 6000000000, 6000000000, 6000000000, 6000000000, 6000000000, 6000000000, 6000000000,
   6000000000, 6000000000, 6000000000, 6000000000, 6000000000, 6000000000, 6000000000, 6000000000,
   6000000000, 6000000000, 6000000000, 6000000000, 6000000000, 6000000000, 6000000000, 6000000000,
   6000000000, 6000000000, 6000000000, 6000000000, 6000000000, 6000000000, 6000000000, 6000000000,
   6000000000, 6000000000, 6000000000, 6000000000, 6000000000, 6000000000, 6000000000, 6000000000,
   6000000000, 6000000000, 6000000000, 6000000000, 6000000000, 6000000000, 6000000000, 6000000000,
   6000000000, 6000000000, 6000000000, 6000000000, 6000000000, 6000000000, 6000000000, 6000000000,
   6000000000, 6000000000, 6000000000, 6000000000, 6000000000, 6000000000, 6000000000, 6000000000,
   6000000000, 6000000000, 6000000000, 6000000000, 6000000000, 6000000000, 6000000000, 6000000000,
   6000000000, 6000000000, 6000000000, 6000000000, 6000000000, 6000000000, 6000000000, 6000000000,
   6000000000, 6000000000, 6000000000, 6000000000, 6000000000, 6000000000, 6000000000, 6000000000,
   6000000000, 6000000000, 6000000000, 6000000000, 6000000000, 6000000000, 6000000000, 6000000000,
   6000000000, 6000000000, 6000000000, 6000000000, 6000000000, 6000000000, 6000000000, 6000000000,
   6000000000, 6000000000, 6000000000, 6000000000, 6000000000, 6000000000, 6000000000, 6000000000,
   6000000000]
/-- `data/wfpair.py:40-3730 _wfpair`, row 112 -/
def wfpair112 : List Nat := [0, 6000000000, 6000000000, 6000000000, 6000000000, 6000000000,
   6000000000, 6000000000, 6000000000, 6000000000, 6000000000, 6000000000, 6000000000, 6000000000,
   6000000000, 6000000000, 6000000000, 6000000000, 6000000000, 6000000000, 6000000000, 6000000000,
   6000000000, 6000000000, 6000000000, 6000000000, 6000000000, 6000000000, 6000000000, 6000000000,
   6000000000, 6000000000, 6000000000, 6000000000, 6000000000, 6000000000, 6000000000, 6000000000,
   6000000000, 6000000000, 6000000000, 6000000000, 6000000000, 6000000000, 6000000000, 6000000000,
   6000000000, 6000000000, 6000000000, 6000000000, 6000000000, 6000000000, 6000000000, 6000000000,
   6000000000, 6000000000, 6000000000, 6000000000, 6000000000, 6000000000, 6000000000, 6000000000,
   6000000000, 6000000000, 6000000000, 6000000000, 6000000000, 6000000000, 6000000000, 6000000000,
   6000000000, 6000000000, 6000000000, 6000000000, 6000000000, 6000000000, 6000000000, 6000000000,
   6000000000, 6000000000, 6000000000, 6000000000, 6000000000, 6000000000, 6000000000, 6000000000,
   6000000000, 6000000000, 6000000000, 6000000000, 6000000000, 6000000000, 6000000000, 6000000000,
   6000000000, 6000000000, 6000000000, 6000000000, 6000000000, 6000000000, 6000000000, 6000000000,
   6000000000, 6000000000, 6000000000, 6000000000, 6000000000, 6000000000, 6000000000, 6000000000,
   6000000000, 6000000000, 6000000000, 6000000000, 6000000000, 6000000000, 6000000000, 6000000000,
   6000000000]
/-- `data/wfpair.py:40-3730 _wfpair`, row 113 -/
def wfpair113 : List Nat := [0, 6000000000, 6000000000, 6000000000, 6000000000, 6000000000,
   6000000000, 6000000000, 6000000000, 6000000000, 6000000000, 6000000000, 6000000000, 6000000000,
   6000000000, 6000000000, 6000000000, 6000000000, 6000000000, 6000000000, 6000000000, 6000000000,
   6000000000, 6000000000, 6000000000, 6000000000, 6000000000, 6000000000, 6000000000, 6000000000,
   6000000000, 6000000000, 6000000000, 6000000000, 6000000000, 6000000000, 6000000000, 6000000000,
   6000000000, 6000000000, 6000000000, 6000000000, 6000000000, 6000000000, 6000000000, 6000000000,
   6000000000, 6000000000, 6000000000, 6000000000, 6000000000, 6000000000, 6000000000, 6000000000,
   6000000000, 6000000000, 6000000000, 6000000000, 6000000000, 6000000000, 6000000000, 6000000000,
   6000000000, 6000000000, 6000000000, 6000000000, 6000000000, 6000000000, 6000000000, 6000000000,
   6000000000, 6000000000, 6000000000, 6000000000, 6000000000, 6000000000, 6000000000, 6000000000,
   6000000000, 6000000000, 6000000000, 6000000000, 6000000000, 6000000000, 6000000000, 6000000000,
   6000000000, 6000000000, 6000000000, 6000000000, 6000000000, 6000000000, 6000000000, 6000000000,
   6000000000, 6000000000, 6000000000, 6000000000, 6000000000, 6000000000, 6000000000, 6000000000,
   6000000000, 6000000000, 6000000000, 6000000000, 6000000000, 6000000000, 6000000000, 6000000000,
   6000000000, 6000000000, 6000000000, 6000000000, 6000000000, 6000000000, 6000000000, 6000000000,
   6000000000]
/-- `data/wfpair.py:40-3730 _wfpair`, row 114 -/
def wfpair114 : List Nat := [0, 6000000000, 6000000000, 6000000000, 6000000000, 6000000000,
   6000000000, 6000000000, 6000000000, 6000000000, 6000000000, 6000000000, 6000000000, 6000000000,
   6000000000, 6000000000, 6000000000, 6000000000, 6000000000, 6000000000, 6000000000, 6000000000,
   6000000000, 6000000000, 6000000000, 6000000000, 6000000000, 6000000000, 6000000000, 6000000000,
   6000000000, 6000000000, 6000000000, 6000000000, 6000000000, 6000000000, 6000000000, 6000000000,
   6000000000, 6000000000, 6000000000, 6000000000, 6000000000, 6000000000, 6000000000, 6000000000,
   6000000000, 6000000000, 6000000000, 6000000000, 6000000000, 6000000000, 6000000000, 6000000000,
   6000000000, 6000000000, 6000000000, 6000000000, 6000000000, 6000000000, 6000000000, 6000000000,
   6000000000, 6000000000, 6000000000, 6000000000, 6000000000, 6000000000, 6000000000, 6000000000,
   6000000000, 6000000000, 6000000000, 6000000000, 6000000000, 6000000000, 6000000000, 6000000000,
   6000000000, 6000000000, 6000000000, 6000000000, 6000000000, 6000000000, 6000000000, 6000000000,
   6000000000, 6000000000, 6000000000, 6000000000, 6000000000, 6000000000, 6000000000, 6000000000,
   6000000000, 6000000000, 6000000000, 6000000000, 6000000000, 6000000000, 6000000000, 6000000000,
   6000000000, 6000000000, 6000000000, 6000000000, 6000000000, 6000000000, 6000000000, 6000000000,
   6000000000, 6000000000, 6000000000, 6000000000, 6000000000, 6000000000, 6000000000, 6000000000,
   6000000000]
/-- `data/wfpair.py:40-3730 _wfpair`, row 115 -/
def wfpair115 : List Nat := [0, 6000000000, 6000000000, 6000000000, 6000000000, 6000000000,
   6000000000, 6000000000, 6000000000, 6000000000, 6000000000, 6000000000, 6000000000, 6000000000,
   6000000000, 6000000000, 6000000000, 6000000000, 6000000000, 6000000000, 6000000000, 6000000000,
   6000000000, 6000000000, 6000000000, 6000000000, 6000000000, 6000000000, 6000000000, 6000000000,
   6000000000, 6000000000, 6000000000, 6000000000, 6000000000, 6000000000, 6000000000, 6000000000,
   6000000000, 6000000000, 6000000000, 6000000000, 6000000000, 6000000000, 6000000000, 6000000000,
   6000000000, 6000000000, 6000000000, 6000000000, 6000000000, 6000000000, 6000000000, 6000000000,
   6000000000, 6000000000, 6000000000, 6000000000, 6000000000, 6000000000, 6000000000, 6000000000,
   6000000000, 6000000000, 6000000000, 6000000000, 6000000000, 6000000000, 6000000000, 6000000000,
   6000000000, 6000000000, 6000000000, 6000000000, 6000000000, 6000000000, 6000000000, 6000000000,
   6000000000, 6000000000, 6000000000, 6000000000, 6000000000, 6000000000, 6000000000, 6000000000,
   6000000000, 6000000000, 6000000000, 6000000000, 6000000000, 6000000000, 6000000000, 6000000000,
   6000000000, 6000000000, 6000000000, 6000000000, 6000000000, 6000000000, 6000000000, 6000000000,
   6000000000, 6000000000, 6000000000, 6000000000, 6000000000, 6000000000, 6000000000, 6000000000,
   6000000000, 6000000000, 6000000000, 6000000000, 6000000000, 6000000000, 6000000000, 6000000000,
   6000000000]
/-- `data/wfpair.py:40-3730 _wfpair`, row 116 -/
def wfpair116 : List Nat := [0, 6000000000, 6000000000, 6000000000, 6000000000, 6000000000,
   6000000000, 6000000000, 6000000000, 6000000000, 6000000000, 6000000000, 6000000000, 6000000000,
   6000000000, 6000000000, 6000000000, 6000000000, 6000000000, 6000000000, 6000000000, 6000000000,
   6000000000, 6000000000, 6000000000, 6000000000, 6000000000, 6000000000, 6000000000, 6000000000,
   6000000000, 6000000000, 6000000000, 6000000000, 6000000000, 6000000000, 6000000000, 6000000000,
   6000000000, 6000000000, 6000000000, 6000000000, 6000000000, 6000000000, 6000000000, 6000000000,
   6000000000, 6000000000, 6000000000, 6000000000, 6000000000, 6000000000, 6000000000, 6000000000,
   6000000000, 6000000000, 6000000000, 6000000000, 6000000000, 6000000000, 6000000000, 6000000000,
   6000000000, 6000000000, 6000000000, 6000000000, 6000000000, 6000000000, 6000000000, 6000000000,
   6000000000, 6000000000, 6000000000, 6000000000, 6000000000, 6000000000, 6000000000, 6000000000,
   6000000000, 6000000000, 6000000000, 6000000000, 6000000000, 6000000000, 6000000000, 6000000000,
   6000000000, 6000000000, 6000000000, 6000000000, 6000000000, 6000000000, 6000000000, 6000000000,
   6000000000, 6000000000, 6000000000, 6000000000, 6000000000, 6000000000, 6000000000, 6000000000,
   6000000000, 6000000000, 6000000000, 6000000000, 6000000000, 6000000000, 6000000000, 6000000000,
   6000000000, 6000000000, 6000000000, 6000000000, 6000000000, 6000000000, 6000000000, 6000000000,
   6000000000]
/-- `data/wfpair.py:40-3730 _wfpair`, row 117 -/
def wfpair117 : List Nat := [0, 6000000000, 6000000000, 6000000000, 6000000000, 6000000000,
   6000000000, 6000000000, 6000000000, 6000000000, 6000000000, 6000000000, 6000000000, 6000000000,
   6000000000, 6000000000, 6000000000, 6000000000, 6000000000, 6000000000, 6000000000, 6000000000,
   6000000000, 6000000000, 6000000000, 6000000000, 6000000000, 6000000000, 6000000000, 6000000000,
   6000000000, 6000000000, 6000000000, 6000000000, 6000000000, 6000000000, 6000000000, 6000000000,
   6000000000, 6000000000, 6000000000, 6000000000, 6000000000, 6000000000, 6000000000, 6000000000,
   6000000000, 6000000000, 6000000000, 6000000000, 6000000000, 6000000000, 6000000000, 6000000000,
   6000000000, 6000000000, 6000000000, 6000000000, 6000000000, 6000000000, 6000000000, 6000000000,
   6000000000, 6000000000, 6000000000, 6000000000, 6000000000, 6000000000, 6000000000, 6000000000,
   6000000000, 6000000000, 6000000000, 6000000000, 6000000000, 6000000000, 6000000000, 6000000000,
   6000000000, 6000000000, 6000000000, 6000000000, 6000000000, 6000000000, 6000000000, 6000000000,
   6000000000, 6000000000, 6000000000, 6000000000, 6000000000, 6000000000, 6000000000, 6000000000,
   6000000000, 6000000000, 6000000000, 6000000000, 6000000000, 6000000000, 6000000000, 6000000000,
   6000000000, 6000000000, 6000000000, 6000000000, 6000000000, 6000000000, 6000000000, 6000000000,
   6000000000, 6000000000, 6000000000, 6000000000, 6000000000, 6000000000, 6000000000, 6000000000,
   6000000000]
/-- `data/wfpair.py:40-3730 _wfpair`, row 118 -/
def wfpair118 : List Nat := [0, 6000000000, 6000000000, 6000000000, 6000000000, 6000000000,
   6000000000, 6000000000, 6000000000, 6000000000, 6000000000, 6000000000, 6000000000, 6000000000,
   6000000000, 6000000000, 6000000000, 6000000000, 6000000000, 6000000000, 6000000000, 6000000000,
   6000000000, 6000000000, 6000000000, 6000000000, 6000000000, 6000000000, 6000000000, 6000000000,
   6000000000, 6000000000, 6000000000, 6000000000, 6000000000, 6000000000, 6000000000, 6000000000,
   6000000000, 6000000000, 6000000000, 6000000000, 6000000000, 6000000000, 6000000000, 6000000000,
   6000000000, 6000000000, 6000000000, 6000000000, 6000000000, 6000000000, 6000000000, 6000000000,
   6000000000, 6000000000, 6000000000, 6000000000, 6000000000, 6000000000, 6000000000, 6000000000,
   6000000000, 6000000000, 6000000000, 6000000000, 6000000000, 6000000000, 6000000000, 6000000000,
   6000000000, 6000000000, 6000000000, 6000000000, 6000000000, 6000000000, 6000000000, 6000000000,
   6000000000, 6000000000, 6000000000, 6000000000, 6000000000, 6000000000, 6000000000, 6000000000,
   6000000000, 6000000000, 6000000000, 6000000000, 6000000000, 6000000000, 6000000000, 6000000000,
   6000000000, 6000000000, 6000000000, 6000000000, 6000000000, 6000000000, 6000000000, 6000000000,
   6000000000, 6000000000, 6000000000, 6000000000, 6000000000, 6000000000, 6000000000, 6000000000,
   6000000000, 6000000000, 6000000000, 6000000000, 6000000000, 6000000000, 6000000000, 6000000000,
   6000000000]
/-- `data/wfpair.py:40-3730 _wfpair`, times `10^9` -/
def wfpair : List (List Nat) := [wfpair0, wfpair1, wfpair2, wfpair3, wfpair4, wfpair5, wfpair6,
   wfpair7, wfpair8, wfpair9, wfpair10, wfpair11, wfpair12, wfpair13, wfpair14, wfpair15, wfpair16,
   wfpair17, wfpair18, wfpair19, wfpair20, wfpair21, wfpair22, wfpair23, wfpair24, wfpair25,
   wfpair26, wfpair27, wfpair28, wfpair29, wfpair30, wfpair31, wfpair32, wfpair33, wfpair34,
   wfpair35, wfpair36, wfpair37, wfpair38, wfpair39, wfpair40, wfpair41, wfpair42, wfpair43,
   wfpair44, wfpair45, wfpair46, wfpair47, wfpair48, wfpair49, wfpair50, wfpair51, wfpair52,
   wfpair53, wfpair54, wfpair55, wfpair56, wfpair57, wfpair58, wfpair59, wfpair60, wfpair61,
   wfpair62, wfpair63, wfpair64, wfpair65, wfpair66, wfpair67, wfpair68, wfpair69, wfpair70,
   wfpair71, wfpair72, wfpair73, wfpair74, wfpair75, wfpair76, wfpair77, wfpair78, wfpair79,
   wfpair80, wfpair81, wfpair82, wfpair83, wfpair84, wfpair85, wfpair86, wfpair87, wfpair88,
   wfpair89, wfpair90, wfpair91, wfpair92, wfpair93, wfpair94, wfpair95, wfpair96, wfpair97,
   wfpair98, wfpair99, wfpair100, wfpair101, wfpair102, wfpair103, wfpair104, wfpair105, wfpair106,
   wfpair107, wfpair108, wfpair109, wfpair110, wfpair111, wfpair112, wfpair113, wfpair114,
   wfpair115, wfpair116, wfpair117, wfpair118]

end TadDftd4.Data
