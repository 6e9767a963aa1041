import Verif.Model.Params

/-!
# Damping parameters

Generated by `tools/gen_params.py` from `damping/parameters/{d3,d4}.toml`; do not edit.
-/

namespace TadDftd4.Data

/-- `d3.toml` -/
def d3File : ParamFile Block where
  variants := [("d3", ["bj", "zero"])]
  defaults := [("d3", [("bj", [("s6", .num ⟨10, 1⟩), ("s9", .num ⟨10, 1⟩), ("alp", .num ⟨140, 1⟩), ("damping", .str "rational")]),
      ("zero", [("s6", .num ⟨10, 1⟩), ("s9", .num ⟨10, 1⟩), ("rs8", .num ⟨10, 1⟩), ("alp", .num ⟨140, 1⟩), ("damping", .str "zero")]),
      ("bjm", [("s6", .num ⟨10, 1⟩), ("s9", .num ⟨10, 1⟩), ("alp", .num ⟨140, 1⟩), ("damping", .str "rational")]),
      ("zerom", [("s6", .num ⟨10, 1⟩), ("s9", .num ⟨10, 1⟩), ("rs8", .num ⟨10, 1⟩), ("alp", .num ⟨140, 1⟩), ("damping", .str "mzero")]),
      ("op", [("s9", .num ⟨10, 1⟩), ("alp", .num ⟨140, 1⟩), ("damping", .str "optimizedpower")])])]
  functionals := [
    ("slaterdirac", [("d3", [("zero", [("rs6", .num ⟨999, 3⟩), ("s8", .num ⟨-1957, 3⟩), ("rs8", .num ⟨697, 3⟩)])])]),
    ("bp", [("d3", [("bj", [("a1", .num ⟨3946, 4⟩), ("s8", .num ⟨32822, 4⟩), ("a2", .num ⟨48516, 4⟩), ("doi", .str "10.1002/jcc.21759")]),
        ("zero", [("rs6", .num ⟨1139, 3⟩), ("s8", .num ⟨1683, 3⟩), ("doi", .str "10.1063/1.3382344")]),
        ("bjm", [("a1", .num ⟨821850, 6⟩), ("s8", .num ⟨3140281, 6⟩), ("a2", .num ⟨2728151, 6⟩), ("doi", .str "10.1021/acs.jpclett.6b00780")]),
        ("zerom", [("rs6", .num ⟨1233460, 6⟩), ("s8", .num ⟨1945174, 6⟩), ("bet", .num ⟨0, 6⟩), ("doi", .str "10.1021/acs.jpclett.6b00780")])])]),
    ("blyp", [("d3", [("bj", [("a1", .num ⟨4298, 4⟩), ("s8", .num ⟨26996, 4⟩), ("a2", .num ⟨42359, 4⟩), ("doi", .str "10.1002/jcc.21759")]),
        ("zero", [("rs6", .num ⟨1094, 3⟩), ("s8", .num ⟨1682, 3⟩), ("doi", .str "10.1063/1.3382344")]),
        ("bjm", [("a1", .num ⟨448486, 6⟩), ("s8", .num ⟨1875007, 6⟩), ("a2", .num ⟨3610679, 6⟩), ("doi", .str "10.1021/acs.jpclett.6b00780")]),
        ("zerom", [("rs6", .num ⟨1279637, 6⟩), ("s8", .num ⟨1841686, 6⟩), ("bet", .num ⟨14370, 6⟩), ("doi", .str "10.1021/acs.jpclett.6b00780")]),
        ("op", [("s6", .num ⟨10, 1⟩), ("s8", .num ⟨131867, 5⟩), ("a1", .num ⟨425, 3⟩), ("a2", .num ⟨350, 2⟩), ("bet", .num ⟨20, 1⟩), ("doi", .str "10.1021/acs.jctc.7b00176")])])]),
    ("revpbe", [("d3", [("bj", [("a1", .num ⟨5238, 4⟩), ("s8", .num ⟨23550, 4⟩), ("a2", .num ⟨35016, 4⟩), ("doi", .str "10.1002/jcc.21759")]),
        ("zero", [("rs6", .num ⟨923, 3⟩), ("s8", .num ⟨1010, 3⟩), ("doi", .str "10.1063/1.3382344")]),
        ("op", [("s6", .num ⟨10, 1⟩), ("s8", .num ⟨144765, 5⟩), ("a1", .num ⟨600, 3⟩), ("a2", .num ⟨250, 2⟩), ("bet", .num ⟨0, 1⟩), ("doi", .str "10.1021/acs.jctc.7b00176")])])]),
    ("rpbe", [("d3", [("bj", [("a1", .num ⟨1820, 4⟩), ("s8", .num ⟨8318, 4⟩), ("a2", .num ⟨40094, 4⟩)]),
        ("zero", [("rs6", .num ⟨872, 3⟩), ("s8", .num ⟨514, 3⟩)])])]),
    ("b97d", [("d3", [("bj", [("a1", .num ⟨5545, 4⟩), ("s8", .num ⟨22609, 4⟩), ("a2", .num ⟨32297, 4⟩), ("doi", .str "10.1002/jcc.21759")]),
        ("zero", [("rs6", .num ⟨892, 3⟩), ("s8", .num ⟨909, 3⟩), ("doi", .str "10.1063/1.3382344")]),
        ("bjm", [("a1", .num ⟨240184, 6⟩), ("s8", .num ⟨1206988, 6⟩), ("a2", .num ⟨3864426, 6⟩), ("doi", .str "10.1021/acs.jpclett.6b00780")]),
        ("zerom", [("rs6", .num ⟨1151808, 6⟩), ("s8", .num ⟨1020078, 6⟩), ("bet", .num ⟨35964, 6⟩), ("doi", .str "10.1021/acs.jpclett.6b00780")]),
        ("op", [("s6", .num ⟨10, 1⟩), ("s8", .num ⟨146861, 5⟩), ("a1", .num ⟨600, 3⟩), ("a2", .num ⟨250, 2⟩), ("bet", .num ⟨0, 1⟩), ("doi", .str "10.1021/acs.jctc.7b00176")])])]),
    ("b973c", [("d3", [("bj", [("a1", .num ⟨37, 2⟩), ("s8", .num ⟨150, 2⟩), ("a2", .num ⟨410, 2⟩), ("doi", .str "10.1063/1.5012601")]),
        ("zero", [("rs6", .num ⟨106, 2⟩), ("s8", .num ⟨150, 2⟩), ("doi", .str "10.1063/1.5012601")])])]),
    ("pbe", [("d3", [("bj", [("a1", .num ⟨4289, 4⟩), ("s8", .num ⟨7875, 4⟩), ("a2", .num ⟨44407, 4⟩), ("doi", .str "10.1002/jcc.21759")]),
        ("zero", [("rs6", .num ⟨1217, 3⟩), ("s8", .num ⟨722, 3⟩), ("doi", .str "10.1063/1.3382344")]),
        ("bjm", [("a1", .num ⟨12092, 6⟩), ("s8", .num ⟨358940, 6⟩), ("a2", .num ⟨5938951, 6⟩), ("doi", .str "10.1021/acs.jpclett.6b00780")]),
        ("zerom", [("rs6", .num ⟨2340218, 6⟩), ("s8", .num ⟨0, 6⟩), ("bet", .num ⟨129434, 6⟩), ("doi", .str "10.1021/acs.jpclett.6b00780")]),
        ("op", [("s6", .num ⟨91826, 5⟩), ("s8", .num ⟨0, 1⟩), ("a1", .num ⟨200, 3⟩), ("a2", .num ⟨4750, 3⟩), ("bet", .num ⟨60, 1⟩), ("doi", .str "10.1021/acs.jctc.7b00176")])])]),
    ("rpw86pbe", [("d3", [("bj", [("a1", .num ⟨4613, 4⟩), ("s8", .num ⟨13845, 4⟩), ("a2", .num ⟨45062, 4⟩), ("doi", .str "10.1002/jcc.21759")]),
        ("zero", [("rs6", .num ⟨1224, 3⟩), ("s8", .num ⟨901, 3⟩)])])]),
    ("b3lyp", [("d3", [("bj", [("a1", .num ⟨3981, 4⟩), ("s8", .num ⟨19889, 4⟩), ("a2", .num ⟨44211, 4⟩), ("doi", .str "10.1002/jcc.21759")]),
        ("zero", [("rs6", .num ⟨1261, 3⟩), ("s8", .num ⟨1703, 3⟩), ("doi", .str "10.1063/1.3382344")]),
        ("bjm", [("a1", .num ⟨278672, 6⟩), ("s8", .num ⟨1466677, 6⟩), ("a2", .num ⟨4606311, 6⟩), ("doi", .str "10.1021/acs.jpclett.6b00780")]),
        ("zerom", [("rs6", .num ⟨1338153, 6⟩), ("s8", .num ⟨1532981, 6⟩), ("bet", .num ⟨13988, 6⟩), ("doi", .str "10.1021/acs.jpclett.6b00780")]),
        ("op", [("s6", .num ⟨10, 1⟩), ("s8", .num ⟨78311, 5⟩), ("a1", .num ⟨300, 3⟩), ("a2", .num ⟨425, 2⟩), ("bet", .num ⟨40, 1⟩), ("doi", .str "10.1021/acs.jctc.7b00176")])])]),
    ("tpss", [("d3", [("bj", [("a1", .num ⟨4535, 4⟩), ("s8", .num ⟨19435, 4⟩), ("a2", .num ⟨44752, 4⟩), ("doi", .str "10.1002/jcc.21759")]),
        ("zero", [("rs6", .num ⟨1166, 3⟩), ("s8", .num ⟨1105, 3⟩), ("doi", .str "10.1063/1.3382344")]),
        ("op", [("s6", .num ⟨10, 1⟩), ("s8", .num ⟨51581, 5⟩), ("a1", .num ⟨575, 3⟩), ("a2", .num ⟨300, 2⟩), ("bet", .num ⟨80, 1⟩), ("doi", .str "10.1021/acs.jctc.7b00176")])])]),
    ("hf", [("d3", [("bj", [("a1", .num ⟨3385, 4⟩), ("s8", .num ⟨9171, 4⟩), ("a2", .num ⟨28830, 4⟩), ("doi", .str "10.1002/jcc.21759")]),
        ("zero", [("rs6", .num ⟨1158, 3⟩), ("s8", .num ⟨1746, 3⟩)])])]),
    ("tpss0", [("d3", [("bj", [("a1", .num ⟨3768, 4⟩), ("s8", .num ⟨12576, 4⟩), ("a2", .num ⟨45865, 4⟩), ("doi", .str "10.1002/jcc.21759")]),
        ("zero", [("rs6", .num ⟨1252, 3⟩), ("s8", .num ⟨1242, 3⟩), ("doi", .str "10.1063/1.3382344")])])]),
    ("pbe0", [("d3", [("bj", [("a1", .num ⟨4145, 4⟩), ("s8", .num ⟨12177, 4⟩), ("a2", .num ⟨48593, 4⟩), ("doi", .str "10.1002/jcc.21759")]),
        ("zero", [("rs6", .num ⟨1287, 3⟩), ("s8", .num ⟨928, 3⟩), ("doi", .str "10.1063/1.3382344")]),
        ("bjm", [("a1", .num ⟨7912, 6⟩), ("s8", .num ⟨528823, 6⟩), ("a2", .num ⟨6162326, 6⟩), ("doi", .str "10.1021/acs.jpclett.6b00780")]),
        ("zerom", [("rs6", .num ⟨2077949, 6⟩), ("s8", .num ⟨81, 6⟩), ("bet", .num ⟨116755, 6⟩), ("doi", .str "10.1021/acs.jpclett.6b00780")]),
        ("op", [("s6", .num ⟨88290, 5⟩), ("s8", .num ⟨0, 1⟩), ("a1", .num ⟨150, 3⟩), ("a2", .num ⟨4750, 3⟩), ("bet", .num ⟨60, 1⟩), ("doi", .str "10.1021/acs.jctc.7b00176")])])]),
    ("hse06", [("d3", [("bj", [("a1", .num ⟨383, 3⟩), ("s8", .num ⟨2310, 3⟩), ("a2", .num ⟨5685, 3⟩), ("doi", .str "10.1021/jp501237c")]),
        ("zero", [("rs6", .num ⟨1129, 3⟩), ("s8", .num ⟨109, 3⟩), ("doi", .str "10.1021/jp501237c")])])]),
    ("revpbe38", [("d3", [("bj", [("a1", .num ⟨4309, 4⟩), ("s8", .num ⟨14760, 4⟩), ("a2", .num ⟨39446, 4⟩), ("doi", .str "10.1039/c0cp02984j")]),
        ("zero", [("rs6", .num ⟨1021, 3⟩), ("s8", .num ⟨862, 3⟩)])])]),
    ("pw6b95", [("d3", [("bj", [("a1", .num ⟨2076, 4⟩), ("s8", .num ⟨7257, 4⟩), ("a2", .num ⟨63750, 4⟩), ("doi", .str "10.1039/c0cp02984j")]),
        ("zero", [("rs6", .num ⟨1532, 3⟩), ("s8", .num ⟨862, 3⟩)])])]),
    ("b2plyp", [("d3", [("bj", [("a1", .num ⟨3065, 4⟩), ("s8", .num ⟨9147, 4⟩), ("a2", .num ⟨50570, 4⟩), ("s6", .num ⟨64, 2⟩), ("doi", .str "10.1039/c0cp02984j")]),
        ("zero", [("rs6", .num ⟨1427, 3⟩), ("s8", .num ⟨1022, 3⟩), ("s6", .num ⟨64, 2⟩), ("doi", .str "10.1021/ct100466k")]),
        ("bjm", [("a1", .num ⟨486434, 6⟩), ("s8", .num ⟨672820, 6⟩), ("a2", .num ⟨3656466, 6⟩), ("s6", .num ⟨64, 2⟩), ("doi", .str "10.1021/acs.jpclett.6b00780")]),
        ("zerom", [("rs6", .num ⟨1313134, 6⟩), ("s8", .num ⟨717543, 6⟩), ("bet", .num ⟨16035, 6⟩), ("s6", .num ⟨64, 2⟩), ("doi", .str "10.1021/acs.jpclett.6b00780")])])]),
    ("dsdblyp", [("d3", [("bj", [("a1", .num ⟨0, 4⟩), ("s8", .num ⟨2130, 4⟩), ("a2", .num ⟨60519, 4⟩), ("s6", .num ⟨50, 2⟩), ("doi", .str "10.1039/c0cp02984j")]),
        ("zero", [("rs6", .num ⟨1569, 3⟩), ("s8", .num ⟨705, 3⟩), ("s6", .num ⟨5, 1⟩), ("doi", .str "10.1021/ct100466k")])])]),
    ("dsdblypfc", [("d3", [("bj", [("a1", .num ⟨9, 4⟩), ("s8", .num ⟨2112, 4⟩), ("a2", .num ⟨59807, 4⟩), ("s6", .num ⟨50, 2⟩), ("doi", .str "10.1039/c0cp02984j")])])]),
    ("dodscan66", [("d3", [("bj", [("s6", .num ⟨3152, 4⟩), ("a1", .num ⟨0, 1⟩), ("s8", .num ⟨0, 1⟩), ("a2", .num ⟨575, 2⟩), ("doi", .str "10.1021/acs.jpca.9b03157")])])]),
    ("revdsdblyp", [("d3", [("bj", [("s6", .num ⟨5451, 4⟩), ("a1", .num ⟨0, 1⟩), ("s8", .num ⟨0, 1⟩), ("a2", .num ⟨52, 1⟩), ("doi", .str "10.1021/acs.jpca.9b03157")])])]),
    ("revdsdpbep86", [("d3", [("bj", [("s6", .num ⟨4377, 4⟩), ("a1", .num ⟨0, 1⟩), ("s8", .num ⟨0, 1⟩), ("a2", .num ⟨55, 1⟩), ("doi", .str "10.1021/acs.jpca.9b03157")])])]),
    ("revdsdpbeb95", [("d3", [("bj", [("s6", .num ⟨3686, 4⟩), ("a1", .num ⟨0, 1⟩), ("s8", .num ⟨0, 1⟩), ("a2", .num ⟨55, 1⟩), ("doi", .str "10.1021/acs.jpca.9b03157")])])]),
    ("revdsdpbe", [("d3", [("bj", [("s6", .num ⟨5746, 4⟩), ("a1", .num ⟨0, 1⟩), ("s8", .num ⟨0, 1⟩), ("a2", .num ⟨55, 1⟩), ("doi", .str "10.1021/acs.jpca.9b03157")])])]),
    ("revdodblyp", [("d3", [("bj", [("s6", .num ⟨6145, 4⟩), ("a1", .num ⟨0, 1⟩), ("s8", .num ⟨0, 1⟩), ("a2", .num ⟨52, 1⟩), ("doi", .str "10.1021/acs.jpca.9b03157")])])]),
    ("revdodpbep86", [("d3", [("bj", [("s6", .num ⟨4770, 4⟩), ("a1", .num ⟨0, 1⟩), ("s8", .num ⟨0, 1⟩), ("a2", .num ⟨55, 1⟩), ("doi", .str "10.1021/acs.jpca.9b03157")])])]),
    ("revdodpbeb95", [("d3", [("bj", [("s6", .num ⟨4107, 4⟩), ("a1", .num ⟨0, 1⟩), ("s8", .num ⟨0, 1⟩), ("a2", .num ⟨55, 1⟩), ("doi", .str "10.1021/acs.jpca.9b03157")])])]),
    ("revdodpbe", [("d3", [("bj", [("s6", .num ⟨6067, 4⟩), ("a1", .num ⟨0, 1⟩), ("s8", .num ⟨0, 1⟩), ("a2", .num ⟨55, 1⟩), ("doi", .str "10.1021/acs.jpca.9b03157")])])]),
    ("bop", [("d3", [("bj", [("a1", .num ⟨4870, 4⟩), ("s8", .num ⟨32950, 4⟩), ("a2", .num ⟨35043, 4⟩), ("doi", .str "10.1039/c0cp02984j")])])]),
    ("mpwlyp", [("d3", [("bj", [("a1", .num ⟨4831, 4⟩), ("s8", .num ⟨20077, 4⟩), ("a2", .num ⟨45323, 4⟩), ("doi", .str "10.1039/c0cp02984j")]),
        ("zero", [("rs6", .num ⟨1239, 3⟩), ("s8", .num ⟨1098, 3⟩), ("doi", .str "10.1039/c0cp02984j")])])]),
    ("olyp", [("d3", [("bj", [("a1", .num ⟨5299, 4⟩), ("s8", .num ⟨26205, 4⟩), ("a2", .num ⟨28065, 4⟩), ("doi", .str "10.1039/c0cp02984j")]),
        ("zero", [("rs6", .num ⟨806, 3⟩), ("s8", .num ⟨1764, 3⟩), ("doi", .str "10.1039/c0cp02984j")])])]),
    ("pbesol", [("d3", [("bj", [("a1", .num ⟨4466, 4⟩), ("s8", .num ⟨29491, 4⟩), ("a2", .num ⟨61742, 4⟩), ("doi", .str "10.1039/c0cp02984j")])])]),
    ("bpbe", [("d3", [("bj", [("a1", .num ⟨4567, 4⟩), ("s8", .num ⟨40728, 4⟩), ("a2", .num ⟨43908, 4⟩), ("doi", .str "10.1039/c0cp02984j")]),
        ("zero", [("rs6", .num ⟨1087, 3⟩), ("s8", .num ⟨2033, 3⟩), ("doi", .str "10.1039/c0cp02984j")])])]),
    ("opbe", [("d3", [("bj", [("a1", .num ⟨5512, 4⟩), ("s8", .num ⟨33816, 4⟩), ("a2", .num ⟨29444, 4⟩), ("doi", .str "10.1039/c0cp02984j")]),
        ("zero", [("rs6", .num ⟨837, 3⟩), ("s8", .num ⟨2033, 3⟩), ("doi", .str "10.1039/c0cp02984j")])])]),
    ("ssb", [("d3", [("bj", [("a1", .num ⟨-952, 4⟩), ("s8", .num ⟨-1744, 4⟩), ("a2", .num ⟨52170, 4⟩), ("doi", .str "10.1039/c0cp02984j")]),
        ("zero", [("rs6", .num ⟨1215, 3⟩), ("s8", .num ⟨663, 3⟩), ("doi", .str "10.1039/c0cp02984j")])])]),
    ("revssb", [("d3", [("bj", [("a1", .num ⟨4720, 4⟩), ("s8", .num ⟨4389, 4⟩), ("a2", .num ⟨40986, 4⟩), ("doi", .str "10.1039/c0cp02984j")]),
        ("zero", [("rs6", .num ⟨1221, 3⟩), ("s8", .num ⟨560, 3⟩), ("doi", .str "10.1039/c0cp02984j")])])]),
    ("otpss", [("d3", [("bj", [("a1", .num ⟨4634, 4⟩), ("s8", .num ⟨27495, 4⟩), ("a2", .num ⟨43153, 4⟩), ("doi", .str "10.1039/c0cp02984j")]),
        ("zero", [("rs6", .num ⟨1128, 3⟩), ("s8", .num ⟨1494, 3⟩), ("doi", .str "10.1039/c0cp02984j")])])]),
    ("b3pw91", [("d3", [("bj", [("a1", .num ⟨4312, 4⟩), ("s8", .num ⟨28524, 4⟩), ("a2", .num ⟨44693, 4⟩), ("doi", .str "10.1039/c0cp02984j")]),
        ("zero", [("rs6", .num ⟨1176, 3⟩), ("s8", .num ⟨1775, 3⟩), ("doi", .str "10.1039/c0cp02984j")])])]),
    ("bhlyp", [("d3", [("bj", [("a1", .num ⟨2793, 4⟩), ("s8", .num ⟨10354, 4⟩), ("a2", .num ⟨49615, 4⟩), ("doi", .str "10.1039/c0cp02984j")]),
        ("zero", [("rs6", .num ⟨1370, 3⟩), ("s8", .num ⟨1442, 3⟩), ("doi", .str "10.1039/c0cp02984j")])])]),
    ("revpbe0", [("d3", [("bj", [("a1", .num ⟨4679, 4⟩), ("s8", .num ⟨17588, 4⟩), ("a2", .num ⟨37619, 4⟩), ("doi", .str "10.1039/c0cp02984j")]),
        ("op", [("s6", .num ⟨10, 1⟩), ("s8", .num ⟨125684, 5⟩), ("a1", .num ⟨725, 3⟩), ("a2", .num ⟨225, 2⟩), ("bet", .num ⟨0, 1⟩), ("doi", .str "10.1021/acs.jctc.7b00176")])])]),
    ("tpssh", [("d3", [("bj", [("a1", .num ⟨4529, 4⟩), ("s8", .num ⟨22382, 4⟩), ("a2", .num ⟨46550, 4⟩), ("doi", .str "10.1039/c0cp02984j")]),
        ("zero", [("rs6", .num ⟨1223, 3⟩), ("s8", .num ⟨1219, 3⟩), ("doi", .str "10.1039/c0cp02984j")]),
        ("op", [("s6", .num ⟨10, 1⟩), ("s8", .num ⟨43185, 5⟩), ("a1", .num ⟨575, 3⟩), ("a2", .num ⟨300, 2⟩), ("bet", .num ⟨80, 1⟩), ("doi", .str "10.1021/acs.jctc.7b00176")])])]),
    ("mpw1b95", [("d3", [("bj", [("a1", .num ⟨1955, 4⟩), ("s8", .num ⟨10508, 4⟩), ("a2", .num ⟨64177, 4⟩), ("doi", .str "10.1039/c0cp02984j")]),
        ("zero", [("rs6", .num ⟨1605, 3⟩), ("s8", .num ⟨1118, 3⟩), ("doi", .str "10.1039/c0cp02984j")])])]),
    ("pwb6k", [("d3", [("bj", [("a1", .num ⟨1805, 4⟩), ("s8", .num ⟨9383, 4⟩), ("a2", .num ⟨77627, 4⟩), ("doi", .str "10.1039/c0cp02984j")]),
        ("zero", [("rs6", .num ⟨1660, 3⟩), ("s8", .num ⟨550, 3⟩), ("doi", .str "10.1039/c0cp02984j")])])]),
    ("b1b95", [("d3", [("bj", [("a1", .num ⟨2092, 4⟩), ("s8", .num ⟨14507, 4⟩), ("a2", .num ⟨55545, 4⟩), ("doi", .str "10.1039/c0cp02984j")]),
        ("zero", [("rs6", .num ⟨1613, 3⟩), ("s8", .num ⟨1868, 3⟩), ("doi", .str "10.1039/c0cp02984j")])])]),
    ("bmk", [("d3", [("bj", [("a1", .num ⟨1940, 4⟩), ("s8", .num ⟨20860, 4⟩), ("a2", .num ⟨59197, 4⟩), ("doi", .str "10.1039/c0cp02984j")]),
        ("zero", [("rs6", .num ⟨1931, 3⟩), ("s8", .num ⟨2168, 3⟩), ("doi", .str "10.1039/c0cp02984j")])])]),
    ("camb3lyp", [("d3", [("bj", [("a1", .num ⟨3708, 4⟩), ("s8", .num ⟨20674, 4⟩), ("a2", .num ⟨54743, 4⟩), ("doi", .str "10.1039/c0cp02984j")]),
        ("zero", [("rs6", .num ⟨1378, 3⟩), ("s8", .num ⟨1217, 3⟩), ("doi", .str "10.1039/c0cp02984j")])])]),
    ("lcwpbe", [("d3", [("bj", [("a1", .num ⟨3919, 4⟩), ("s8", .num ⟨18541, 4⟩), ("a2", .num ⟨50897, 4⟩), ("doi", .str "10.1039/c0cp02984j")]),
        ("zero", [("rs6", .num ⟨1355, 3⟩), ("s8", .num ⟨1279, 3⟩), ("doi", .str "10.1039/c0cp02984j")]),
        ("bjm", [("a1", .num ⟨563761, 6⟩), ("s8", .num ⟨906564, 6⟩), ("a2", .num ⟨3593680, 6⟩), ("doi", .str "10.1021/acs.jpclett.6b00780")]),
        ("zerom", [("rs6", .num ⟨1366361, 6⟩), ("s8", .num ⟨1280619, 6⟩), ("bet", .num ⟨3160, 6⟩), ("doi", .str "10.1021/acs.jpclett.6b00780")])])]),
    ("b2gpplyp", [("d3", [("bj", [("a1", .num ⟨0, 4⟩), ("s8", .num ⟨2597, 4⟩), ("a2", .num ⟨63332, 4⟩), ("s6", .num ⟨560, 3⟩), ("doi", .str "10.1039/c0cp02984j")]),
        ("zero", [("rs6", .num ⟨1586, 3⟩), ("s8", .num ⟨760, 3⟩), ("s6", .num ⟨56, 2⟩), ("doi", .str "10.1021/ct100466k")])])]),
    ("ptpss", [("d3", [("bj", [("a1", .num ⟨0, 4⟩), ("s8", .num ⟨2804, 4⟩), ("a2", .num ⟨65745, 4⟩), ("s6", .num ⟨750, 3⟩), ("doi", .str "10.1039/c0cp02984j")]),
        ("zero", [("rs6", .num ⟨1541, 3⟩), ("s8", .num ⟨879, 3⟩), ("s6", .num ⟨75, 2⟩), ("doi", .str "10.1021/ct100466k")])])]),
    ("pwpb95", [("d3", [("bj", [("a1", .num ⟨0, 4⟩), ("s8", .num ⟨2904, 4⟩), ("a2", .num ⟨73141, 4⟩), ("s6", .num ⟨820, 3⟩), ("doi", .str "10.1039/c0cp02984j")]),
        ("zero", [("rs6", .num ⟨1557, 3⟩), ("s8", .num ⟨705, 3⟩), ("s6", .num ⟨82, 2⟩), ("doi", .str "10.1021/ct100466k")])])]),
    ("hf_mixed", [("d3", [("bj", [("a1", .num ⟨5607, 4⟩), ("s8", .num ⟨39027, 4⟩), ("a2", .num ⟨45622, 4⟩), ("doi", .str "10.1063/1.3700154")])])]),
    ("hf_sv", [("d3", [("bj", [("a1", .num ⟨4249, 4⟩), ("s8", .num ⟨21849, 4⟩), ("a2", .num ⟨42783, 4⟩), ("doi", .str "10.1063/1.3700154")])])]),
    ("hf_minis", [("d3", [("bj", [("a1", .num ⟨1702, 4⟩), ("s8", .num ⟨9841, 4⟩), ("a2", .num ⟨38506, 4⟩), ("doi", .str "10.1063/1.3700154")])])]),
    ("b3lyp_631gd", [("d3", [("bj", [("a1", .num ⟨5014, 4⟩), ("s8", .num ⟨40672, 4⟩), ("a2", .num ⟨48409, 4⟩), ("doi", .str "10.1063/1.3700154")])])]),
    ("hcth120", [("d3", [("bj", [("a1", .num ⟨3563, 4⟩), ("s8", .num ⟨10821, 4⟩), ("a2", .num ⟨43359, 4⟩)])])]),
    ("dftb3", [("d3", [("bj", [("a1", .num ⟨5719, 4⟩), ("s8", .num ⟨5883, 4⟩), ("a2", .num ⟨36017, 4⟩)])])]),
    ("pw1pw", [("d3", [("bj", [("a1", .num ⟨3807, 4⟩), ("s8", .num ⟨23363, 4⟩), ("a2", .num ⟨58844, 4⟩), ("doi", .str "10.1039/c7cp04913g")]),
        ("zero", [("rs6", .num ⟨14968, 4⟩), ("s8", .num ⟨11786, 4⟩), ("doi", .str "10.1039/c7cp04913g")])])]),
    ("pwgga", [("d3", [("bj", [("a1", .num ⟨2211, 4⟩), ("s8", .num ⟨26910, 4⟩), ("a2", .num ⟨67278, 4⟩)])])]),
    ("hsesol", [("d3", [("bj", [("a1", .num ⟨4650, 4⟩), ("s8", .num ⟨29215, 4⟩), ("a2", .num ⟨62003, 4⟩)])])]),
    ("hf3c", [("d3", [("bj", [("a1", .num ⟨4171, 4⟩), ("s8", .num ⟨8777, 4⟩), ("a2", .num ⟨29149, 4⟩), ("doi", .str "10.1002/jcc.23317")])])]),
    ("hf3cv", [("d3", [("bj", [("a1", .num ⟨3063, 4⟩), ("s8", .num ⟨5022, 4⟩), ("a2", .num ⟨39856, 4⟩), ("doi", .str "10.1002/jcc.23317")])])]),
    ("pbeh3c", [("d3", [("bj", [("a1", .num ⟨4860, 4⟩), ("s8", .num ⟨0, 4⟩), ("a2", .num ⟨45000, 4⟩), ("doi", .str "10.1063/1.4927476")])])]),
    ("scan", [("d3", [("bj", [("a1", .num ⟨5380, 4⟩), ("s8", .num ⟨0, 4⟩), ("a2", .num ⟨54200, 4⟩), ("doi", .str "10.1103/physrevb.94.115144")]),
        ("zero", [("rs6", .num ⟨1324, 3⟩), ("s8", .num ⟨0, 3⟩), ("doi", .str "10.1103/physrevb.94.115144")])])]),
    ("rscan", [("d3", [("bj", [("a1", .num ⟨47023427, 8⟩), ("s8", .num ⟨108859014, 8⟩), ("a2", .num ⟨573408312, 8⟩), ("doi", .str "10.1063/5.0041008")])])]),
    ("r2scan", [("d3", [("bj", [("a1", .num ⟨49484001, 8⟩), ("s8", .num ⟨78981345, 8⟩), ("a2", .num ⟨573083694, 8⟩), ("doi", .str "10.1063/5.0041008")])])]),
    ("r2scanh", [("d3", [("bj", [("s8", .num ⟨11236, 4⟩), ("a1", .num ⟨4709, 4⟩), ("a2", .num ⟨59157, 4⟩), ("doi", .str "10.1063/5.0086040")])])]),
    ("r2scan0", [("d3", [("bj", [("s8", .num ⟨11846, 4⟩), ("a1", .num ⟨4534, 4⟩), ("a2", .num ⟨58972, 4⟩), ("doi", .str "10.1063/5.0086040")])])]),
    ("r2scan50", [("d3", [("bj", [("s8", .num ⟨13294, 4⟩), ("a1", .num ⟨4311, 4⟩), ("a2", .num ⟨59240, 4⟩), ("doi", .str "10.1063/5.0086040")])])]),
    ("wb97x", [("d3", [("bj", [("a1", .num ⟨0, 4⟩), ("s8", .num ⟨2641, 4⟩), ("a2", .num ⟨54959, 4⟩)]),
        ("zero", [("rs6", .num ⟨1281, 3⟩), ("s8", .num ⟨10, 1⟩), ("rs8", .num ⟨1094, 3⟩), ("doi", .str "10.1021/ct300715s")])])]),
    ("wb97m", [("d3", [("bj", [("a1", .num ⟨5660, 4⟩), ("s8", .num ⟨3908, 4⟩), ("a2", .num ⟨31280, 4⟩), ("doi", .str "10.1021/acs.jctc.8b00842")])])]),
    ("b97m", [("d3", [("bj", [("a1", .num ⟨-780, 4⟩), ("s8", .num ⟨1384, 4⟩), ("a2", .num ⟨55946, 4⟩), ("doi", .str "10.1021/acs.jctc.8b00842")])])]),
    ("pbehpbe", [("d3", [("bj", [("a1", .num ⟨0, 4⟩), ("s8", .num ⟨11152, 4⟩), ("a2", .num ⟨67184, 4⟩), ("doi", .str "10.1039/c7cp04913g")]),
        ("zero", [("rs6", .num ⟨15703, 4⟩), ("s8", .num ⟨14010, 4⟩), ("doi", .str "10.1039/c7cp04913g")])])]),
    ("xlyp", [("d3", [("bj", [("a1", .num ⟨809, 4⟩), ("s8", .num ⟨15669, 4⟩), ("a2", .num ⟨53166, 4⟩), ("doi", .str "10.1039/c7cp04913g")]),
        ("zero", [("rs6", .num ⟨9384, 4⟩), ("s8", .num ⟨7447, 4⟩), ("doi", .str "10.1039/c7cp04913g")])])]),
    ("mpwpw", [("d3", [("bj", [("a1", .num ⟨3168, 4⟩), ("s8", .num ⟨17974, 4⟩), ("a2", .num ⟨47732, 4⟩), ("doi", .str "10.1039/c7cp04913g")]),
        ("zero", [("rs6", .num ⟨13725, 4⟩), ("s8", .num ⟨19467, 4⟩), ("doi", .str "10.1039/c7cp04913g")])])]),
    ("hcth407", [("d3", [("bj", [("a1", .num ⟨0, 4⟩), ("s8", .num ⟨6490, 4⟩), ("a2", .num ⟨48162, 4⟩), ("doi", .str "10.1039/c7cp04913g")]),
        ("zero", [("rs6", .num ⟨40426, 4⟩), ("s8", .num ⟨27694, 4⟩), ("doi", .str "10.1039/c7cp04913g")])])]),
    ("revtpss", [("d3", [("bj", [("a1", .num ⟨4326, 4⟩), ("s8", .num ⟨14023, 4⟩), ("a2", .num ⟨44723, 4⟩), ("doi", .str "10.1039/c7cp04913g")]),
        ("zero", [("rs6", .num ⟨13491, 4⟩), ("s8", .num ⟨13666, 4⟩), ("doi", .str "10.1039/c7cp04913g")]),
        ("op", [("s6", .num ⟨10, 1⟩), ("s8", .num ⟨27632, 5⟩), ("a1", .num ⟨700, 3⟩), ("a2", .num ⟨2500, 3⟩), ("bet", .num ⟨80, 1⟩), ("doi", .str "10.1021/acs.jctc.7b00176")])])]),
    ("tauhcth", [("d3", [("bj", [("a1", .num ⟨0, 4⟩), ("s8", .num ⟨12626, 4⟩), ("a2", .num ⟨56162, 4⟩), ("doi", .str "10.1039/c7cp04913g")]),
        ("zero", [("rs6", .num ⟨9320, 4⟩), ("s8", .num ⟨5662, 4⟩), ("doi", .str "10.1039/c7cp04913g")])])]),
    ("b3p", [("d3", [("bj", [("a1", .num ⟨4601, 4⟩), ("s8", .num ⟨33211, 4⟩), ("a2", .num ⟨49858, 4⟩), ("doi", .str "10.1039/c7cp04913g")]),
        ("zero", [("rs6", .num ⟨11897, 4⟩), ("s8", .num ⟨11961, 4⟩), ("doi", .str "10.1039/c7cp04913g")])])]),
    ("b1p", [("d3", [("bj", [("a1", .num ⟨4724, 4⟩), ("s8", .num ⟨35681, 4⟩), ("a2", .num ⟨49858, 4⟩), ("doi", .str "10.1039/c7cp04913g")]),
        ("zero", [("rs6", .num ⟨11815, 4⟩), ("s8", .num ⟨11209, 4⟩), ("doi", .str "10.1039/c7cp04913g")])])]),
    ("b1lyp", [("d3", [("bj", [("a1", .num ⟨1986, 4⟩), ("s8", .num ⟨21167, 4⟩), ("a2", .num ⟨53875, 4⟩), ("doi", .str "10.1039/c7cp04913g")]),
        ("zero", [("rs6", .num ⟨13725, 4⟩), ("s8", .num ⟨19467, 4⟩), ("doi", .str "10.1039/c7cp04913g")])])]),
    ("mpwb1k", [("d3", [("bj", [("a1", .num ⟨1474, 4⟩), ("s8", .num ⟨9499, 4⟩), ("a2", .num ⟨66223, 4⟩), ("doi", .str "10.1039/c0cp02984j")]),
        ("zero", [("rs6", .num ⟨1671, 3⟩), ("s8", .num ⟨1061, 3⟩), ("doi", .str "10.1039/c0cp02984j")])])]),
    ("mpw1lyp", [("d3", [("zero", [("rs6", .num ⟨20512, 4⟩), ("s8", .num ⟨19529, 4⟩), ("doi", .str "10.1039/c7cp04913g")])])]),
    ("mpw1pw", [("d3", [("bj", [("a1", .num ⟨3342, 4⟩), ("s8", .num ⟨18744, 4⟩), ("a2", .num ⟨49819, 4⟩), ("doi", .str "10.1039/c7cp04913g")]),
        ("zero", [("rs6", .num ⟨12892, 4⟩), ("s8", .num ⟨14758, 4⟩), ("doi", .str "10.1039/c7cp04913g")])])]),
    ("mpw1kcis", [("d3", [("bj", [("a1", .num ⟨576, 4⟩), ("s8", .num ⟨10893, 4⟩), ("a2", .num ⟨55314, 4⟩), ("doi", .str "10.1039/c7cp04913g")]),
        ("zero", [("rs6", .num ⟨17231, 4⟩), ("s8", .num ⟨22917, 4⟩), ("doi", .str "10.1039/c7cp04913g")])])]),
    ("mpwkcis1k", [("d3", [("zero", [("rs6", .num ⟨14853, 4⟩), ("s8", .num ⟨17553, 4⟩), ("doi", .str "10.1039/c7cp04913g")])])]),
    ("pbeh1pbe", [("d3", [("bj", [("a1", .num ⟨0, 4⟩), ("s8", .num ⟨14877, 4⟩), ("a2", .num ⟨70385, 4⟩), ("doi", .str "10.1039/c7cp04913g")]),
        ("zero", [("rs6", .num ⟨13719, 4⟩), ("s8", .num ⟨10430, 4⟩), ("doi", .str "10.1039/c7cp04913g")])])]),
    ("pbe1kcis", [("d3", [("bj", [("a1", .num ⟨0, 4⟩), ("s8", .num ⟨7688, 4⟩), ("a2", .num ⟨62794, 4⟩), ("doi", .str "10.1039/c7cp04913g")]),
        ("zero", [("rs6", .num ⟨36355, 4⟩), ("s8", .num ⟨17934, 4⟩), ("doi", .str "10.1039/c7cp04913g")])])]),
    ("x3lyp", [("d3", [("bj", [("a1", .num ⟨2022, 4⟩), ("s8", .num ⟨15744, 4⟩), ("a2", .num ⟨54184, 4⟩), ("doi", .str "10.1039/c7cp04913g")]),
        ("zero", [("rs6", .num ⟨10, 1⟩), ("s8", .num ⟨2990, 4⟩), ("doi", .str "10.1039/c7cp04913g")])])]),
    ("o3lyp", [("d3", [("bj", [("a1", .num ⟨963, 4⟩), ("s8", .num ⟨18171, 4⟩), ("a2", .num ⟨59940, 4⟩), ("doi", .str "10.1039/c7cp04913g")]),
        ("zero", [("rs6", .num ⟨14060, 4⟩), ("s8", .num ⟨18058, 4⟩), ("doi", .str "10.1039/c7cp04913g")])])]),
    ("b97_1", [("d3", [("bj", [("a1", .num ⟨0, 4⟩), ("s8", .num ⟨4814, 4⟩), ("a2", .num ⟨62279, 4⟩), ("doi", .str "10.1039/c7cp04913g")]),
        ("zero", [("rs6", .num ⟨37924, 4⟩), ("s8", .num ⟨16418, 4⟩), ("doi", .str "10.1039/c7cp04913g")]),
        ("op", [("s6", .num ⟨97388, 5⟩), ("s8", .num ⟨0, 1⟩), ("a1", .num ⟨150, 3⟩), ("a2", .num ⟨425, 2⟩), ("bet", .num ⟨60, 1⟩), ("doi", .str "10.1021/acs.jctc.7b00176")])])]),
    ("b97_2", [("d3", [("bj", [("a1", .num ⟨0, 4⟩), ("s8", .num ⟨9448, 4⟩), ("a2", .num ⟨59940, 4⟩), ("doi", .str "10.1039/c7cp04913g")]),
        ("zero", [("rs6", .num ⟨17066, 4⟩), ("s8", .num ⟨16418, 4⟩), ("doi", .str "10.1039/c7cp04913g")])])]),
    ("b98", [("d3", [("bj", [("a1", .num ⟨0, 4⟩), ("s8", .num ⟨7086, 4⟩), ("a2", .num ⟨60672, 4⟩), ("doi", .str "10.1039/c7cp04913g")]),
        ("zero", [("rs6", .num ⟨26895, 4⟩), ("s8", .num ⟨19078, 4⟩), ("doi", .str "10.1039/c7cp04913g")])])]),
    ("hiss", [("d3", [("bj", [("a1", .num ⟨0, 4⟩), ("s8", .num ⟨16112, 4⟩), ("a2", .num ⟨73539, 4⟩), ("doi", .str "10.1039/c7cp04913g")]),
        ("zero", [("rs6", .num ⟨13338, 4⟩), ("s8", .num ⟨7615, 4⟩), ("doi", .str "10.1039/c7cp04913g")])])]),
    ("hse03", [("d3", [("bj", [("a1", .num ⟨0, 4⟩), ("s8", .num ⟨11243, 4⟩), ("a2", .num ⟨68889, 4⟩), ("doi", .str "10.1039/c7cp04913g")]),
        ("zero", [("rs6", .num ⟨13944, 4⟩), ("s8", .num ⟨10156, 4⟩), ("doi", .str "10.1039/c7cp04913g")])])]),
    ("revtpssh", [("d3", [("bj", [("a1", .num ⟨2660, 4⟩), ("s8", .num ⟨14076, 4⟩), ("a2", .num ⟨53761, 4⟩), ("doi", .str "10.1039/c7cp04913g")]),
        ("zero", [("rs6", .num ⟨13224, 4⟩), ("s8", .num ⟨12504, 4⟩), ("doi", .str "10.1039/c7cp04913g")]),
        ("op", [("s6", .num ⟨10, 1⟩), ("s8", .num ⟨12467, 5⟩), ("a1", .num ⟨575, 3⟩), ("a2", .num ⟨3000, 3⟩), ("bet", .num ⟨100, 1⟩), ("doi", .str "10.1021/acs.jctc.7b00176")])])]),
    ("revtpss0", [("d3", [("bj", [("a1", .num ⟨2218, 4⟩), ("s8", .num ⟨16151, 4⟩), ("a2", .num ⟨57985, 4⟩), ("doi", .str "10.1039/c7cp04913g")]),
        ("zero", [("rs6", .num ⟨12881, 4⟩), ("s8", .num ⟨10649, 4⟩), ("doi", .str "10.1039/c7cp04913g")])])]),
    ("tpss1kcis", [("d3", [("bj", [("a1", .num ⟨0, 4⟩), ("s8", .num ⟨10542, 4⟩), ("a2", .num ⟨60201, 4⟩), ("doi", .str "10.1039/c7cp04913g")]),
        ("zero", [("rs6", .num ⟨17729, 4⟩), ("s8", .num ⟨20902, 4⟩), ("doi", .str "10.1039/c7cp04913g")])])]),
    ("tauhcthhyb", [("d3", [("bj", [("a1", .num ⟨0, 4⟩), ("s8", .num ⟨9585, 4⟩), ("a2", .num ⟨101389, 4⟩), ("doi", .str "10.1039/c7cp04913g")]),
        ("zero", [("rs6", .num ⟨15001, 4⟩), ("s8", .num ⟨16302, 4⟩), ("doi", .str "10.1039/c7cp04913g")])])]),
    ("m11", [("d3", [("bj", [("a1", .num ⟨0, 4⟩), ("s8", .num ⟨28112, 4⟩), ("a2", .num ⟨101389, 4⟩), ("doi", .str "10.1021/acs.jpclett.5b01591")])])]),
    ("sogga11x", [("d3", [("bj", [("a1", .num ⟨1330, 4⟩), ("s8", .num ⟨11426, 4⟩), ("a2", .num ⟨57381, 4⟩), ("doi", .str "10.1021/acs.jpclett.5b01591")])])]),
    ("pkzb", [("d3", [("zero", [("rs6", .num ⟨6327, 4⟩), ("s8", .num ⟨0, 1⟩), ("doi", .str "10.1039/c7cp04913g")])])]),
    ("n12", [("d3", [("zero", [("rs6", .num ⟨13493, 4⟩), ("s8", .num ⟨23916, 4⟩), ("doi", .str "10.1039/c7cp04913g")])])]),
    ("n12sx", [("d3", [("bj", [("a1", .num ⟨3283, 4⟩), ("s8", .num ⟨24900, 4⟩), ("a2", .num ⟨57898, 4⟩), ("doi", .str "10.1021/acs.jpclett.5b01591")])])]),
    ("mn12sx", [("d3", [("bj", [("a1", .num ⟨983, 4⟩), ("s8", .num ⟨11674, 4⟩), ("a2", .num ⟨80259, 4⟩), ("doi", .str "10.1021/acs.jpclett.5b01591")])])]),
    ("mn12l", [("d3", [("bj", [("a1", .num ⟨0, 4⟩), ("s8", .num ⟨22674, 4⟩), ("a2", .num ⟨91494, 4⟩), ("doi", .str "10.1021/acs.jpclett.5b01591")])])]),
    ("mn15", [("d3", [("bj", [("a1", .num ⟨20971, 4⟩), ("s8", .num ⟨7862, 4⟩), ("a2", .num ⟨75923, 4⟩), ("doi", .str "10.1039/c7cp04913g")])])]),
    ("lc_whpbe", [("d3", [("bj", [("a1", .num ⟨2746, 4⟩), ("s8", .num ⟨11908, 4⟩), ("a2", .num ⟨53157, 4⟩), ("doi", .str "10.1039/c7cp04913g")])])]),
    ("mpw2plyp", [("d3", [("bj", [("s6", .num ⟨66, 2⟩), ("a1", .num ⟨4105, 4⟩), ("s8", .num ⟨6223, 4⟩), ("a2", .num ⟨50136, 4⟩), ("doi", .str "10.1039/c7cp04913g")]),
        ("zero", [("s6", .num ⟨66, 2⟩), ("rs6", .num ⟨15527, 4⟩), ("s8", .num ⟨7529, 4⟩), ("doi", .str "10.1039/c7cp04913g")])])]),
    ("ms2", [("d3", [("op", [("s6", .num ⟨10, 1⟩), ("s8", .num ⟨90743, 5⟩), ("a1", .num ⟨700, 3⟩), ("a2", .num ⟨400, 2⟩), ("bet", .num ⟨20, 1⟩), ("doi", .str "10.1021/acs.jctc.7b00176")])])]),
    ("ms2h", [("d3", [("op", [("s6", .num ⟨10, 1⟩), ("s8", .num ⟨169464, 5⟩), ("a1", .num ⟨650, 3⟩), ("a2", .num ⟨475, 2⟩), ("bet", .num ⟨0, 1⟩), ("doi", .str "10.1021/acs.jctc.7b00176")])])]),
    ("m05", [("d3", [("zero", [("rs6", .num ⟨1373, 3⟩), ("s8", .num ⟨595, 3⟩), ("doi", .str "10.1039/c0cp02984j")])])]),
    ("m052x", [("d3", [("zero", [("rs6", .num ⟨1417, 3⟩), ("s8", .num ⟨0, 3⟩), ("doi", .str "10.1039/c0cp02984j")])])]),
    ("m06l", [("d3", [("zero", [("rs6", .num ⟨1581, 3⟩), ("s8", .num ⟨0, 3⟩), ("doi", .str "10.1039/c0cp02984j")])])]),
    ("m06", [("d3", [("zero", [("rs6", .num ⟨1325, 3⟩), ("s8", .num ⟨0, 3⟩), ("doi", .str "10.1039/c0cp02984j")])])]),
    ("m062x", [("d3", [("zero", [("rs6", .num ⟨1619, 3⟩), ("s8", .num ⟨0, 3⟩), ("doi", .str "10.1039/c0cp02984j")])])]),
    ("m08hx", [("d3", [("zero", [("rs6", .num ⟨16247, 4⟩), ("s8", .num ⟨0, 1⟩), ("doi", .str "10.1039/c7cp04913g")])])]),
    ("m11l", [("d3", [("zero", [("rs6", .num ⟨23933, 4⟩), ("s8", .num ⟨11129, 4⟩), ("doi", .str "10.1021/acs.jpclett.5b01591")])])]),
    ("mn15l", [("d3", [("zero", [("rs6", .num ⟨33388, 4⟩), ("s8", .num ⟨0, 1⟩), ("doi", .str "10.1039/c7cp04913g")])])]),
    ("pwp", [("d3", [("zero", [("rs6", .num ⟨21040, 4⟩), ("s8", .num ⟨8747, 4⟩), ("doi", .str "10.1039/c7cp04913g")])])]),
    ("pw91", [("d3", [("bj", [("a1", .num ⟨6319, 4⟩), ("s8", .num ⟨19598, 4⟩), ("a2", .num ⟨45718, 4⟩), ("doi", .str "10.1073/pnas.1516984112")])])]),
    ("drpa75", [("d3", [("bj", [("s6", .num ⟨3754, 4⟩), ("a1", .num ⟨0, 1⟩), ("s8", .num ⟨0, 1⟩), ("a2", .num ⟨45048, 4⟩), ("doi", .str "10.1039/c6cp00688d")])])]),
    ("scsdrpa75", [("d3", [("bj", [("s6", .num ⟨2528, 4⟩), ("a1", .num ⟨0, 1⟩), ("s8", .num ⟨0, 1⟩), ("a2", .num ⟨45050, 4⟩), ("doi", .str "10.1021/acs.jpca.1c01295")])])]),
    ("optscsdrpa75", [("d3", [("bj", [("s6", .num ⟨2546, 4⟩), ("a1", .num ⟨0, 1⟩), ("s8", .num ⟨0, 1⟩), ("a2", .num ⟨45050, 4⟩), ("doi", .str "10.1021/acs.jpca.1c01295")])])]),
    ("dsdpbedrpa75", [("d3", [("bj", [("s6", .num ⟨3223, 4⟩), ("a1", .num ⟨0, 1⟩), ("s8", .num ⟨0, 1⟩), ("a2", .num ⟨45050, 4⟩), ("doi", .str "10.1021/acs.jpca.1c01295")])])]),
    ("dsdpbep86drpa75", [("d3", [("bj", [("s6", .num ⟨3012, 4⟩), ("a1", .num ⟨0, 1⟩), ("s8", .num ⟨0, 1⟩), ("a2", .num ⟨45050, 4⟩), ("doi", .str "10.1021/acs.jpca.1c01295")])])]),
    ("dsdpbep86_2011", [("d3", [("bj", [("s6", .num ⟨418, 3⟩), ("a1", .num ⟨0, 1⟩), ("s8", .num ⟨0, 1⟩), ("a2", .num ⟨565, 2⟩), ("doi", .str "10.1039/c1cp22592h")])])]),
    ("dsdsvwn5", [("d3", [("bj", [("s6", .num ⟨46, 2⟩), ("a1", .num ⟨0, 1⟩), ("s8", .num ⟨0, 1⟩), ("a2", .num ⟨56, 1⟩), ("doi", .str "10.1002/jcc.23391")])])]),
    ("dsdsp86", [("d3", [("bj", [("s6", .num ⟨30, 2⟩), ("a1", .num ⟨0, 1⟩), ("s8", .num ⟨0, 1⟩), ("a2", .num ⟨58, 1⟩), ("doi", .str "10.1002/jcc.23391")])])]),
    ("dsdslyp", [("d3", [("bj", [("s6", .num ⟨30, 2⟩), ("a1", .num ⟨0, 1⟩), ("s8", .num ⟨0, 1⟩), ("a2", .num ⟨56, 1⟩), ("doi", .str "10.1002/jcc.23391")])])]),
    ("dsdspbe", [("d3", [("bj", [("s6", .num ⟨40, 2⟩), ("a1", .num ⟨0, 1⟩), ("s8", .num ⟨0, 1⟩), ("a2", .num ⟨60, 1⟩), ("doi", .str "10.1002/jcc.23391")])])]),
    ("dsdbvwn5", [("d3", [("bj", [("s6", .num ⟨61, 2⟩), ("a1", .num ⟨0, 1⟩), ("s8", .num ⟨0, 1⟩), ("a2", .num ⟨52, 1⟩), ("doi", .str "10.1002/jcc.23391")])])]),
    ("dsdblyp_2013", [("d3", [("bj", [("s6", .num ⟨57, 2⟩), ("a1", .num ⟨0, 1⟩), ("s8", .num ⟨0, 1⟩), ("a2", .num ⟨54, 1⟩), ("doi", .str "10.1002/jcc.23391")])])]),
    ("dsdbpbe", [("d3", [("bj", [("s6", .num ⟨122, 2⟩), ("a1", .num ⟨0, 1⟩), ("s8", .num ⟨0, 1⟩), ("a2", .num ⟨66, 1⟩), ("doi", .str "10.1002/jcc.23391")])])]),
    ("dsdbp86", [("d3", [("bj", [("s6", .num ⟨76, 2⟩), ("a1", .num ⟨0, 1⟩), ("s8", .num ⟨0, 1⟩), ("a2", .num ⟨60, 1⟩), ("doi", .str "10.1002/jcc.23391")])])]),
    ("dsdbpw91", [("d3", [("bj", [("s6", .num ⟨114, 2⟩), ("a1", .num ⟨0, 1⟩), ("s8", .num ⟨0, 1⟩), ("a2", .num ⟨65, 1⟩), ("doi", .str "10.1002/jcc.23391")])])]),
    ("dsdbb95", [("d3", [("bj", [("s6", .num ⟨102, 2⟩), ("a1", .num ⟨0, 1⟩), ("s8", .num ⟨0, 1⟩), ("a2", .num ⟨68, 1⟩), ("doi", .str "10.1002/jcc.23391")])])]),
    ("dsdpbevwn5", [("d3", [("bj", [("s6", .num ⟨54, 2⟩), ("a1", .num ⟨0, 1⟩), ("s8", .num ⟨0, 1⟩), ("a2", .num ⟨51, 1⟩), ("doi", .str "10.1002/jcc.23391")])])]),
    ("dsdpbelyp", [("d3", [("bj", [("s6", .num ⟨43, 2⟩), ("a1", .num ⟨0, 1⟩), ("s8", .num ⟨0, 1⟩), ("a2", .num ⟨52, 1⟩), ("doi", .str "10.1002/jcc.23391")])])]),
    ("dsdpbe", [("d3", [("bj", [("s6", .num ⟨78, 2⟩), ("a1", .num ⟨0, 1⟩), ("s8", .num ⟨0, 1⟩), ("a2", .num ⟨61, 1⟩), ("doi", .str "10.1002/jcc.23391")])])]),
    ("dsdpbep86", [("d3", [("bj", [("s6", .num ⟨48, 2⟩), ("a1", .num ⟨0, 1⟩), ("s8", .num ⟨0, 1⟩), ("a2", .num ⟨56, 1⟩), ("doi", .str "10.1002/jcc.23391")])])]),
    ("dsdpbepw91", [("d3", [("bj", [("s6", .num ⟨73, 2⟩), ("a1", .num ⟨0, 1⟩), ("s8", .num ⟨0, 1⟩), ("a2", .num ⟨60, 1⟩), ("doi", .str "10.1002/jcc.23391")])])]),
    ("dsdpbeb95", [("d3", [("bj", [("s6", .num ⟨61, 2⟩), ("a1", .num ⟨0, 1⟩), ("s8", .num ⟨0, 1⟩), ("a2", .num ⟨62, 1⟩), ("doi", .str "10.1002/jcc.23391")])])]),
    ("dsdpbehb95", [("d3", [("bj", [("s6", .num ⟨58, 2⟩), ("a1", .num ⟨0, 1⟩), ("s8", .num ⟨0, 1⟩), ("a2", .num ⟨62, 1⟩), ("doi", .str "10.1002/jcc.23391")])])]),
    ("dsdpbehp86", [("d3", [("bj", [("s6", .num ⟨46, 2⟩), ("a1", .num ⟨0, 1⟩), ("s8", .num ⟨0, 1⟩), ("a2", .num ⟨56, 1⟩), ("doi", .str "10.1002/jcc.23391")])])]),
    ("dsdmpwlyp", [("d3", [("bj", [("s6", .num ⟨48, 2⟩), ("a1", .num ⟨0, 1⟩), ("s8", .num ⟨0, 1⟩), ("a2", .num ⟨53, 1⟩), ("doi", .str "10.1002/jcc.23391")])])]),
    ("dsdmpwpw91", [("d3", [("bj", [("s6", .num ⟨90, 2⟩), ("a1", .num ⟨0, 1⟩), ("s8", .num ⟨0, 1⟩), ("a2", .num ⟨62, 1⟩), ("doi", .str "10.1002/jcc.23391")])])]),
    ("dsdmpwp86", [("d3", [("bj", [("s6", .num ⟨59, 2⟩), ("a1", .num ⟨0, 1⟩), ("s8", .num ⟨0, 1⟩), ("a2", .num ⟨58, 1⟩), ("doi", .str "10.1002/jcc.23391")])])]),
    ("dsdmpwpbe", [("d3", [("bj", [("s6", .num ⟨96, 2⟩), ("a1", .num ⟨0, 1⟩), ("s8", .num ⟨0, 1⟩), ("a2", .num ⟨63, 1⟩), ("doi", .str "10.1002/jcc.23391")])])]),
    ("dsdmpwb95", [("d3", [("bj", [("s6", .num ⟨82, 2⟩), ("a1", .num ⟨0, 1⟩), ("s8", .num ⟨0, 1⟩), ("a2", .num ⟨66, 1⟩), ("doi", .str "10.1002/jcc.23391")])])]),
    ("dsdhsepbe", [("d3", [("bj", [("s6", .num ⟨79, 2⟩), ("a1", .num ⟨0, 1⟩), ("s8", .num ⟨0, 1⟩), ("a2", .num ⟨61, 1⟩), ("doi", .str "10.1002/jcc.23391")])])]),
    ("dsdhsepw91", [("d3", [("bj", [("s6", .num ⟨74, 2⟩), ("a1", .num ⟨0, 1⟩), ("s8", .num ⟨0, 1⟩), ("a2", .num ⟨60, 1⟩), ("doi", .str "10.1002/jcc.23391")])])]),
    ("dsdhsep86", [("d3", [("bj", [("s6", .num ⟨46, 2⟩), ("a1", .num ⟨0, 1⟩), ("s8", .num ⟨0, 1⟩), ("a2", .num ⟨56, 1⟩), ("doi", .str "10.1002/jcc.23391")])])]),
    ("dsdhselyp", [("d3", [("bj", [("s6", .num ⟨40, 2⟩), ("a1", .num ⟨0, 1⟩), ("s8", .num ⟨0, 1⟩), ("a2", .num ⟨52, 1⟩), ("doi", .str "10.1002/jcc.23391")])])]),
    ("dsdtpss", [("d3", [("bj", [("s6", .num ⟨72, 2⟩), ("a1", .num ⟨0, 1⟩), ("s8", .num ⟨0, 1⟩), ("a2", .num ⟨65, 1⟩), ("doi", .str "10.1002/jcc.23391")])])]),
    ("dsdtpssb95", [("d3", [("bj", [("s6", .num ⟨91, 2⟩), ("a1", .num ⟨0, 1⟩), ("s8", .num ⟨0, 1⟩), ("a2", .num ⟨79, 1⟩), ("doi", .str "10.1002/jcc.23391")])])]),
    ("dsdolyp", [("d3", [("bj", [("s6", .num ⟨93, 2⟩), ("a1", .num ⟨0, 1⟩), ("s8", .num ⟨0, 1⟩), ("a2", .num ⟨58, 1⟩), ("doi", .str "10.1002/jcc.23391")])])]),
    ("dsdxlyp", [("d3", [("bj", [("s6", .num ⟨51, 2⟩), ("a1", .num ⟨0, 1⟩), ("s8", .num ⟨0, 1⟩), ("a2", .num ⟨53, 1⟩), ("doi", .str "10.1002/jcc.23391")])])]),
    ("dsdxb95", [("d3", [("bj", [("s6", .num ⟨92, 2⟩), ("a1", .num ⟨0, 1⟩), ("s8", .num ⟨0, 1⟩), ("a2", .num ⟨67, 1⟩), ("doi", .str "10.1002/jcc.23391")])])]),
    ("dsdb98", [("d3", [("bj", [("s6", .num ⟨7, 2⟩), ("a1", .num ⟨0, 1⟩), ("s8", .num ⟨0, 1⟩), ("a2", .num ⟨37, 1⟩), ("doi", .str "10.1002/jcc.23391")])])]),
    ("dsdbmk", [("d3", [("bj", [("s6", .num ⟨17, 2⟩), ("a1", .num ⟨0, 1⟩), ("s8", .num ⟨0, 1⟩), ("a2", .num ⟨39, 1⟩), ("doi", .str "10.1002/jcc.23391")])])]),
    ("dsdthcth", [("d3", [("bj", [("s6", .num ⟨39, 2⟩), ("a1", .num ⟨0, 1⟩), ("s8", .num ⟨0, 1⟩), ("a2", .num ⟨48, 1⟩), ("doi", .str "10.1002/jcc.23391")])])]),
    ("dsdhcth407", [("d3", [("bj", [("s6", .num ⟨53, 2⟩), ("a1", .num ⟨0, 1⟩), ("s8", .num ⟨0, 1⟩), ("a2", .num ⟨50, 1⟩), ("doi", .str "10.1002/jcc.23391")])])]),
    ("dodsvwn5", [("d3", [("bj", [("s6", .num ⟨57, 2⟩), ("a1", .num ⟨0, 1⟩), ("s8", .num ⟨0, 1⟩), ("a2", .num ⟨56, 1⟩), ("doi", .str "10.1002/jcc.23391")])])]),
    ("dodblyp", [("d3", [("bj", [("s6", .num ⟨96, 2⟩), ("a1", .num ⟨0, 1⟩), ("s8", .num ⟨0, 1⟩), ("a2", .num ⟨51, 1⟩), ("doi", .str "10.1002/jcc.23391")])])]),
    ("dodpbe", [("d3", [("bj", [("s6", .num ⟨91, 2⟩), ("a1", .num ⟨0, 1⟩), ("s8", .num ⟨0, 1⟩), ("a2", .num ⟨59, 1⟩), ("doi", .str "10.1002/jcc.23391")])])]),
    ("dodpbep86", [("d3", [("bj", [("s6", .num ⟨72, 2⟩), ("a1", .num ⟨0, 1⟩), ("s8", .num ⟨0, 1⟩), ("a2", .num ⟨54, 1⟩), ("doi", .str "10.1002/jcc.23391")])])]),
    ("dodpbeb95", [("d3", [("bj", [("s6", .num ⟨71, 2⟩), ("a1", .num ⟨0, 1⟩), ("s8", .num ⟨0, 1⟩), ("a2", .num ⟨60, 1⟩), ("doi", .str "10.1002/jcc.23391")])])]),
    ("dodhsep86", [("d3", [("bj", [("s6", .num ⟨69, 2⟩), ("a1", .num ⟨0, 1⟩), ("s8", .num ⟨0, 1⟩), ("a2", .num ⟨54, 1⟩), ("doi", .str "10.1002/jcc.23391")])])]),
    ("dodpbehb95", [("d3", [("bj", [("s6", .num ⟨67, 2⟩), ("a1", .num ⟨0, 1⟩), ("s8", .num ⟨0, 1⟩), ("a2", .num ⟨60, 1⟩), ("doi", .str "10.1002/jcc.23391")])])]),
    ("cf22d", [("d3", [("zero", [("rs6", .num ⟨153, 2⟩), ("doi", .str "10.1038/s43588-022-00371-5")])])])]

/-- `d4.toml` -/
def d4File : ParamFile Block where
  variants := [("d4", ["bj-eeq-atm"])]
  defaults := [("d4", [("bj-eeq-two", [("s6", .num ⟨10, 1⟩), ("s9", .num ⟨0, 1⟩), ("alp", .num ⟨160, 1⟩), ("damping", .str "bj"), ("mbd", .str "none")]),
      ("bj-eeq-atm", [("s6", .num ⟨10, 1⟩), ("s9", .num ⟨10, 1⟩), ("alp", .num ⟨160, 1⟩), ("damping", .str "bj"), ("mbd", .str "approx-atm")]),
      ("bj-eeq-xct", [("s6", .num ⟨10, 1⟩), ("s9", .num ⟨10, 1⟩), ("alp", .num ⟨160, 1⟩), ("damping", .str "bj"), ("mbd", .str "exact-atm")]),
      ("bj-eeq-mbd", [("s6", .num ⟨10, 1⟩), ("s9", .num ⟨10, 1⟩), ("alp", .num ⟨160, 1⟩), ("damping", .str "bj"), ("mbd", .str "rpa-like")])])]
  functionals := [
    ("am05", [("d4", [("bj-eeq-atm", [("s8", .num ⟨171885838, 8⟩), ("a1", .num ⟨47901431, 8⟩), ("a2", .num ⟨596771581, 8⟩)])])]),
    ("b1b95", [("d4", [("bj-eeq-atm", [("s8", .num ⟨127701162, 8⟩), ("a1", .num ⟨40554715, 8⟩), ("a2", .num ⟨463323074, 8⟩), ("doi", .str "10.1063/1.5090222")]),
        ("bj-eeq-mbd", [("s8", .num ⟨119549420, 8⟩), ("a1", .num ⟨39241474, 8⟩), ("a2", .num ⟨460397611, 8⟩), ("doi", .str "10.1063/1.5090222")])])]),
    ("b1lyp", [("d4", [("bj-eeq-atm", [("s8", .num ⟨198553711, 8⟩), ("a1", .num ⟨39309040, 8⟩), ("a2", .num ⟨455465145, 8⟩), ("doi", .str "10.1063/1.5090222")]),
        ("bj-eeq-mbd", [("s8", .num ⟨194609514, 8⟩), ("a1", .num ⟨38643351, 8⟩), ("a2", .num ⟨454135968, 8⟩), ("doi", .str "10.1063/1.5090222")])])]),
    ("b1p", [("d4", [("bj-eeq-atm", [("s8", .num ⟨336115015, 8⟩), ("a1", .num ⟨48665293, 8⟩), ("a2", .num ⟨505219572, 8⟩), ("doi", .str "10.1063/1.5090222")]),
        ("bj-eeq-mbd", [("s8", .num ⟨338693011, 8⟩), ("a1", .num ⟨48478615, 8⟩), ("a2", .num ⟨504361224, 8⟩), ("doi", .str "10.1063/1.5090222")])])]),
    ("b1pw", [("d4", [("bj-eeq-atm", [("s8", .num ⟨302227550, 8⟩), ("a1", .num ⟨47396846, 8⟩), ("a2", .num ⟨449845309, 8⟩), ("doi", .str "10.1063/1.5090222")]),
        ("bj-eeq-mbd", [("s8", .num ⟨298402204, 8⟩), ("a1", .num ⟨46862950, 8⟩), ("a2", .num ⟨448637849, 8⟩), ("doi", .str "10.1063/1.5090222")])])]),
    ("b2gpplyp", [("d4", [("bj-eeq-atm", [("s6", .num ⟨5600, 4⟩), ("s8", .num ⟨94633372, 8⟩), ("a1", .num ⟨42907301, 8⟩), ("a2", .num ⟨518802602, 8⟩), ("doi", .str "10.1063/1.5090222")]),
        ("bj-eeq-mbd", [("s6", .num ⟨5600, 4⟩), ("s8", .num ⟨100494214, 8⟩), ("a1", .num ⟨42447353, 8⟩), ("a2", .num ⟨519461329, 8⟩), ("doi", .str "10.1063/1.5090222")])])]),
    ("b2plyp", [("d4", [("bj-eeq-atm", [("s6", .num ⟨6400, 4⟩), ("s8", .num ⟨116888646, 8⟩), ("a1", .num ⟨44154604, 8⟩), ("a2", .num ⟨473114642, 8⟩), ("doi", .str "10.1063/1.5090222")]),
        ("bj-eeq-mbd", [("s6", .num ⟨6400, 4⟩), ("s8", .num ⟨115117773, 8⟩), ("a1", .num ⟨42666167, 8⟩), ("a2", .num ⟨473635790, 8⟩), ("doi", .str "10.1063/1.5090222")])])]),
    ("b3lyp", [("d4", [("bj-eeq-atm", [("s8", .num ⟨202929367, 8⟩), ("a1", .num ⟨40868035, 8⟩), ("a2", .num ⟨453807137, 8⟩), ("doi", .str "10.1063/1.5090222")]),
        ("bj-eeq-mbd", [("s8", .num ⟨200246246, 8⟩), ("a1", .num ⟨40276191, 8⟩), ("a2", .num ⟨452778320, 8⟩), ("doi", .str "10.1063/1.5090222")])])]),
    ("b3p", [("d4", [("bj-eeq-atm", [("s8", .num ⟨308822155, 8⟩), ("a1", .num ⟨47324238, 8⟩), ("a2", .num ⟨498682134, 8⟩), ("doi", .str "10.1063/1.5090222")]),
        ("bj-eeq-mbd", [("s8", .num ⟨314456298, 8⟩), ("a1", .num ⟨47187947, 8⟩), ("a2", .num ⟨498624258, 8⟩), ("doi", .str "10.1063/1.5090222")])])]),
    ("b3pw", [("d4", [("bj-eeq-atm", [("s8", .num ⟨288364295, 8⟩), ("a1", .num ⟨46990860, 8⟩), ("a2", .num ⟨451641422, 8⟩), ("doi", .str "10.1063/1.5090222")]),
        ("bj-eeq-mbd", [("s8", .num ⟨285656268, 8⟩), ("a1", .num ⟨46491801, 8⟩), ("a2", .num ⟨450601452, 8⟩), ("doi", .str "10.1063/1.5090222")])])]),
    ("b97", [("d4", [("bj-eeq-atm", [("s8", .num ⟨87854260, 8⟩), ("a1", .num ⟨29319126, 8⟩), ("a2", .num ⟨451647719, 8⟩), ("doi", .str "10.1063/1.5090222")]),
        ("bj-eeq-mbd", [("s8", .num ⟨81171211, 8⟩), ("a1", .num ⟨28461283, 8⟩), ("a2", .num ⟨448691468, 8⟩), ("doi", .str "10.1063/1.5090222")])])]),
    ("bhlyp", [("d4", [("bj-eeq-atm", [("s8", .num ⟨165281646, 8⟩), ("a1", .num ⟨27263660, 8⟩), ("a2", .num ⟨548634586, 8⟩), ("doi", .str "10.1063/1.5090222")]),
        ("bj-eeq-mbd", [("s8", .num ⟨168082973, 8⟩), ("a1", .num ⟨26835837, 8⟩), ("a2", .num ⟨548847218, 8⟩), ("doi", .str "10.1063/1.5090222")])])]),
    ("blyp", [("d4", [("bj-eeq-atm", [("s8", .num ⟨234076671, 8⟩), ("a1", .num ⟨44488865, 8⟩), ("a2", .num ⟨409330090, 8⟩), ("doi", .str "10.1063/1.5090222")]),
        ("bj-eeq-mbd", [("s8", .num ⟨233971306, 8⟩), ("a1", .num ⟨44733688, 8⟩), ("a2", .num ⟨406583931, 8⟩), ("doi", .str "10.1063/1.5090222")])])]),
    ("bpbe", [("d4", [("bj-eeq-atm", [("s8", .num ⟨364405246, 8⟩), ("a1", .num ⟨52905620, 8⟩), ("a2", .num ⟨411311891, 8⟩), ("doi", .str "10.1063/1.5090222")]),
        ("bj-eeq-mbd", [("s8", .num ⟨365322996, 8⟩), ("a1", .num ⟨49933501, 8⟩), ("a2", .num ⟨424294852, 8⟩), ("doi", .str "10.1063/1.5090222")])])]),
    ("bp", [("d4", [("bj-eeq-atm", [("s8", .num ⟨335497927, 8⟩), ("a1", .num ⟨43645861, 8⟩), ("a2", .num ⟨492406854, 8⟩), ("doi", .str "10.1063/1.5090222")]),
        ("bj-eeq-mbd", [("s8", .num ⟨333728176, 8⟩), ("a1", .num ⟨43220330, 8⟩), ("a2", .num ⟨491443061, 8⟩), ("doi", .str "10.1063/1.5090222")])])]),
    ("bpw", [("d4", [("bj-eeq-atm", [("s8", .num ⟨324571506, 8⟩), ("a1", .num ⟨50050454, 8⟩), ("a2", .num ⟨412346483, 8⟩), ("doi", .str "10.1063/1.5090222")]),
        ("bj-eeq-mbd", [("s8", .num ⟨323137432, 8⟩), ("a1", .num ⟨49955226, 8⟩), ("a2", .num ⟨410411084, 8⟩), ("doi", .str "10.1063/1.5090222")])])]),
    ("camb3lyp", [("d4", [("bj-eeq-atm", [("s8", .num ⟨166041301, 8⟩), ("a1", .num ⟨40267156, 8⟩), ("a2", .num ⟨517432195, 8⟩), ("doi", .str "10.1063/1.5090222")]),
        ("bj-eeq-mbd", [("s8", .num ⟨174407961, 8⟩), ("a1", .num ⟨40137870, 8⟩), ("a2", .num ⟨518731225, 8⟩), ("doi", .str "10.1063/1.5090222")])])]),
    ("camqtp01", [("d4", [("bj-eeq-atm", [("s8", .num ⟨1156, 3⟩), ("a1", .num ⟨461, 3⟩), ("a2", .num ⟨6375, 3⟩), ("doi", .str "10.1021/acs.jctc.3c00717")])])]),
    ("dodblyp", [("d4", [("bj-eeq-atm", [("s6", .num ⟨4700, 4⟩), ("s8", .num ⟨131146043, 8⟩), ("a1", .num ⟨43407294, 8⟩), ("a2", .num ⟨427914360, 8⟩), ("doi", .str "10.1063/1.5090222")]),
        ("bj-eeq-mbd", [("s6", .num ⟨4700, 4⟩), ("s8", .num ⟨117809956, 8⟩), ("a1", .num ⟨40252428, 8⟩), ("a2", .num ⟨425096555, 8⟩), ("doi", .str "10.1063/1.5090222")])])]),
    ("dodpbeb95", [("d4", [("bj-eeq-atm", [("s6", .num ⟨5600, 4⟩), ("s8", .num ⟨1574635, 8⟩), ("a1", .num ⟨43745720, 8⟩), ("a2", .num ⟨369180763, 8⟩), ("doi", .str "10.1063/1.5090222")]),
        ("bj-eeq-mbd", [("s6", .num ⟨5400, 4⟩), ("s8", .num ⟨-15702803, 8⟩), ("a1", .num ⟨30629389, 8⟩), ("a2", .num ⟨369170956, 8⟩), ("doi", .str "10.1063/1.5090222")])])]),
    ("dodpbe", [("d4", [("bj-eeq-atm", [("s6", .num ⟨4800, 4⟩), ("s8", .num ⟨92051454, 8⟩), ("a1", .num ⟨43037052, 8⟩), ("a2", .num ⟨438067238, 8⟩), ("doi", .str "10.1063/1.5090222")]),
        ("bj-eeq-mbd", [("s6", .num ⟨4800, 4⟩), ("s8", .num ⟨83908332, 8⟩), ("a1", .num ⟨40655901, 8⟩), ("a2", .num ⟨433601239, 8⟩), ("doi", .str "10.1063/1.5090222")])])]),
    ("dodpbep86", [("d4", [("bj-eeq-atm", [("s6", .num ⟨4600, 4⟩), ("s8", .num ⟨71405681, 8⟩), ("a1", .num ⟨42408665, 8⟩), ("a2", .num ⟨452884439, 8⟩), ("doi", .str "10.1063/1.5090222")]),
        ("bj-eeq-mbd", [("s6", .num ⟨4600, 4⟩), ("s8", .num ⟨68309910, 8⟩), ("a1", .num ⟨40600975, 8⟩), ("a2", .num ⟨450011772, 8⟩), ("doi", .str "10.1063/1.5090222")])])]),
    ("dodsvwn", [("d4", [("bj-eeq-atm", [("s6", .num ⟨4200, 4⟩), ("s8", .num ⟨94500207, 8⟩), ("a1", .num ⟨47449026, 8⟩), ("a2", .num ⟨505316093, 8⟩), ("doi", .str "10.1063/1.5090222")]),
        ("bj-eeq-mbd", [("s6", .num ⟨4200, 4⟩), ("s8", .num ⟨101890345, 8⟩), ("a1", .num ⟨46167459, 8⟩), ("a2", .num ⟨511121382, 8⟩), ("doi", .str "10.1063/1.5090222")])])]),
    ("dsdblyp", [("d4", [("bj-eeq-atm", [("s6", .num ⟨5400, 4⟩), ("s8", .num ⟨63018237, 8⟩), ("a1", .num ⟨47591835, 8⟩), ("a2", .num ⟨473713781, 8⟩), ("doi", .str "10.1063/1.5090222")]),
        ("bj-eeq-mbd", [("s6", .num ⟨5400, 4⟩), ("s8", .num ⟨65438817, 8⟩), ("a1", .num ⟨46549574, 8⟩), ("a2", .num ⟨473449899, 8⟩), ("doi", .str "10.1063/1.5090222")])])]),
    ("dsdpbeb95", [("d4", [("bj-eeq-atm", [("s6", .num ⟨5400, 4⟩), ("s8", .num ⟨-14668670, 8⟩), ("a1", .num ⟨46394587, 8⟩), ("a2", .num ⟨364913860, 8⟩), ("doi", .str "10.1063/1.5090222")]),
        ("bj-eeq-mbd", [("s6", .num ⟨5400, 4⟩), ("s8", .num ⟨-24336862, 8⟩), ("a1", .num ⟨32697409, 8⟩), ("a2", .num ⟨369767540, 8⟩), ("doi", .str "10.1063/1.5090222")])])]),
    ("dsdpbe", [("d4", [("bj-eeq-atm", [("s6", .num ⟨4500, 4⟩), ("s8", .num ⟨70584116, 8⟩), ("a1", .num ⟨45787085, 8⟩), ("a2", .num ⟨444566742, 8⟩), ("doi", .str "10.1063/1.5090222")]),
        ("bj-eeq-mbd", [("s6", .num ⟨4500, 4⟩), ("s8", .num ⟨66116783, 8⟩), ("a1", .num ⟨43565915, 8⟩), ("a2", .num ⟨441110670, 8⟩), ("doi", .str "10.1063/1.5090222")])])]),
    ("dsdpbep86", [("d4", [("bj-eeq-atm", [("s6", .num ⟨4700, 4⟩), ("s8", .num ⟨37586675, 8⟩), ("a1", .num ⟨53698768, 8⟩), ("a2", .num ⟨513022435, 8⟩), ("doi", .str "10.1063/1.5090222")]),
        ("bj-eeq-mbd", [("s6", .num ⟨4700, 4⟩), ("s8", .num ⟨51157821, 8⟩), ("a1", .num ⟨53889789, 8⟩), ("a2", .num ⟨518645943, 8⟩), ("doi", .str "10.1063/1.5090222")])])]),
    ("dsdsvwn", [("d4", [("bj-eeq-atm", [("s6", .num ⟨4100, 4⟩), ("s8", .num ⟨72914436, 8⟩), ("a1", .num ⟨51347412, 8⟩), ("a2", .num ⟨511858541, 8⟩), ("doi", .str "10.1063/1.5090222")]),
        ("bj-eeq-mbd", [("s6", .num ⟨4100, 4⟩), ("s8", .num ⟨90084457, 8⟩), ("a1", .num ⟨51106529, 8⟩), ("a2", .num ⟨522490148, 8⟩), ("doi", .str "10.1063/1.5090222")])])]),
    ("glyp", [("d4", [("bj-eeq-atm", [("s8", .num ⟨423798924, 8⟩), ("a1", .num ⟨38426465, 8⟩), ("a2", .num ⟨438412863, 8⟩), ("doi", .str "10.1063/1.5090222")]),
        ("bj-eeq-mbd", [("s8", .num ⟨383861584, 8⟩), ("a1", .num ⟨36343954, 8⟩), ("a2", .num ⟨432875183, 8⟩), ("doi", .str "10.1063/1.5090222")])])]),
    ("hf", [("d4", [("bj-eeq-atm", [("s8", .num ⟨161679827, 8⟩), ("a1", .num ⟨44959224, 8⟩), ("a2", .num ⟨335743605, 8⟩), ("doi", .str "10.1063/1.5090222")]),
        ("bj-eeq-mbd", [("s8", .num ⟨146001146, 8⟩), ("a1", .num ⟨43186901, 8⟩), ("a2", .num ⟨334116014, 8⟩), ("doi", .str "10.1063/1.5090222")])])]),
    ("hse03", [("d4", [("bj-eeq-atm", [("s8", .num ⟨119812280, 8⟩), ("a1", .num ⟨38662939, 8⟩), ("a2", .num ⟨522925796, 8⟩)])])]),
    ("hse06", [("d4", [("bj-eeq-atm", [("s8", .num ⟨119528249, 8⟩), ("a1", .num ⟨38663183, 8⟩), ("a2", .num ⟨519133469, 8⟩)])])]),
    ("hse12", [("d4", [("bj-eeq-atm", [("s8", .num ⟨123500792, 8⟩), ("a1", .num ⟨39226921, 8⟩), ("a2", .num ⟨522036266, 8⟩)])])]),
    ("hse12s", [("d4", [("bj-eeq-atm", [("s8", .num ⟨123767762, 8⟩), ("a1", .num ⟨39989137, 8⟩), ("a2", .num ⟨534809245, 8⟩)])])]),
    ("hsesol", [("d4", [("bj-eeq-atm", [("s8", .num ⟨182207807, 8⟩), ("a1", .num ⟨45646268, 8⟩), ("a2", .num ⟨559662251, 8⟩)])])]),
    ("lb94", [("d4", [("bj-eeq-atm", [("s8", .num ⟨259538499, 8⟩), ("a1", .num ⟨42088944, 8⟩), ("a2", .num ⟨328193223, 8⟩), ("doi", .str "10.1063/1.5090222")]),
        ("bj-eeq-mbd", [("s8", .num ⟨236461524, 8⟩), ("a1", .num ⟨41518379, 8⟩), ("a2", .num ⟨319365471, 8⟩), ("doi", .str "10.1063/1.5090222")])])]),
    ("lcblyp", [("d4", [("bj-eeq-atm", [("s8", .num ⟨160344180, 8⟩), ("a1", .num ⟨45769839, 8⟩), ("a2", .num ⟨786924893, 8⟩), ("doi", .str "10.1063/1.5090222")]),
        ("bj-eeq-mbd", [("s8", .num ⟨240109962, 8⟩), ("a1", .num ⟨47867438, 8⟩), ("a2", .num ⟨801038424, 8⟩), ("doi", .str "10.1063/1.5090222")])])]),
    ("lcwpbe", [("d4", [("bj-eeq-atm", [("s8", .num ⟨1170, 3⟩), ("a1", .num ⟨378, 3⟩), ("a2", .num ⟨4816, 3⟩), ("doi", .str "10.1021/acs.jctc.3c00717")])])]),
    ("lcwpbeh", [("d4", [("bj-eeq-atm", [("s8", .num ⟨1318, 3⟩), ("a1", .num ⟨386, 3⟩), ("a2", .num ⟨5010, 3⟩), ("doi", .str "10.1021/acs.jctc.3c00717")])])]),
    ("lh07ssvwn", [("d4", [("bj-eeq-atm", [("s8", .num ⟨316675531, 8⟩), ("a1", .num ⟨35965552, 8⟩), ("a2", .num ⟨431947614, 8⟩), ("doi", .str "10.1063/1.5090222")]),
        ("bj-eeq-mbd", [("s8", .num ⟨292498406, 8⟩), ("a1", .num ⟨34173988, 8⟩), ("a2", .num ⟨428404951, 8⟩), ("doi", .str "10.1063/1.5090222")])])]),
    ("lh07tsvwn", [("d4", [("bj-eeq-atm", [("s8", .num ⟨209333001, 8⟩), ("a1", .num ⟨35025189, 8⟩), ("a2", .num ⟨434166515, 8⟩), ("doi", .str "10.1063/1.5090222")]),
        ("bj-eeq-mbd", [("s8", .num ⟨195389300, 8⟩), ("a1", .num ⟨33511515, 8⟩), ("a2", .num ⟨431853958, 8⟩), ("doi", .str "10.1063/1.5090222")])])]),
    ("lh12ctssifpw92", [("d4", [("bj-eeq-atm", [("s8", .num ⟨268467610, 8⟩), ("a1", .num ⟨34190416, 8⟩), ("a2", .num ⟨391039666, 8⟩), ("doi", .str "10.1063/1.5090222")]),
        ("bj-eeq-mbd", [("s8", .num ⟨241356607, 8⟩), ("a1", .num ⟨31391316, 8⟩), ("a2", .num ⟨388935769, 8⟩), ("doi", .str "10.1063/1.5090222")])])]),
    ("lh12ctssirpw92", [("d4", [("bj-eeq-atm", [("s8", .num ⟨248973402, 8⟩), ("a1", .num ⟨34026075, 8⟩), ("a2", .num ⟨396948081, 8⟩), ("doi", .str "10.1063/1.5090222")]),
        ("bj-eeq-mbd", [("s8", .num ⟨224917162, 8⟩), ("a1", .num ⟨31446575, 8⟩), ("a2", .num ⟨395070925, 8⟩), ("doi", .str "10.1063/1.5090222")])])]),
    ("lh14tcalpbe", [("d4", [("bj-eeq-atm", [("s8", .num ⟨128130770, 8⟩), ("a1", .num ⟨38822021, 8⟩), ("a2", .num ⟨492501211, 8⟩), ("doi", .str "10.1063/1.5090222")]),
        ("bj-eeq-mbd", [("s8", .num ⟨127677253, 8⟩), ("a1", .num ⟨38128670, 8⟩), ("a2", .num ⟨491698883, 8⟩), ("doi", .str "10.1063/1.5090222")])])]),
    ("lh20t", [("d4", [("bj-eeq-atm", [("s8", .num ⟨113, 3⟩), ("a1", .num ⟨479, 3⟩), ("a2", .num ⟨4635, 3⟩), ("doi", .str "10.1021/acs.jctc.0c00498")])])]),
    ("m06", [("d4", [("bj-eeq-atm", [("s8", .num ⟨16366729, 8⟩), ("a1", .num ⟨53456413, 8⟩), ("a2", .num ⟨606192174, 8⟩), ("doi", .str "10.1063/1.5090222")]),
        ("bj-eeq-mbd", [("s8", .num ⟨22948274, 8⟩), ("a1", .num ⟨52927285, 8⟩), ("a2", .num ⟨606516782, 8⟩), ("doi", .str "10.1063/1.5090222")])])]),
    ("m06l", [("d4", [("bj-eeq-atm", [("s8", .num ⟨59493760, 8⟩), ("a1", .num ⟨71422359, 8⟩), ("a2", .num ⟨635314182, 8⟩), ("doi", .str "10.1063/1.5090222")]),
        ("bj-eeq-mbd", [("s8", .num ⟨40077779, 8⟩), ("a1", .num ⟨69611405, 8⟩), ("a2", .num ⟨629092087, 8⟩), ("doi", .str "10.1063/1.5090222")])])]),
    ("mn12sx", [("d4", [("bj-eeq-atm", [("s8", .num ⟨85964873, 8⟩), ("a1", .num ⟨62662681, 8⟩), ("a2", .num ⟨562088906, 8⟩)])])]),
    ("mpw1b95", [("d4", [("bj-eeq-atm", [("s8", .num ⟨50093024, 8⟩), ("a1", .num ⟨41585097, 8⟩), ("a2", .num ⟨499154869, 8⟩), ("doi", .str "10.1063/1.5090222")]),
        ("bj-eeq-mbd", [("s8", .num ⟨53791835, 8⟩), ("a1", .num ⟨41016913, 8⟩), ("a2", .num ⟨499284176, 8⟩), ("doi", .str "10.1063/1.5090222")])])]),
    ("mpw1lyp", [("d4", [("bj-eeq-atm", [("s8", .num ⟨115591153, 8⟩), ("a1", .num ⟨25603493, 8⟩), ("a2", .num ⟨532083895, 8⟩), ("doi", .str "10.1063/1.5090222")]),
        ("bj-eeq-mbd", [("s8", .num ⟨119986100, 8⟩), ("a1", .num ⟨25502469, 8⟩), ("a2", .num ⟨532301304, 8⟩), ("doi", .str "10.1063/1.5090222")])])]),
    ("mpw1pw", [("d4", [("bj-eeq-atm", [("s8", .num ⟨180841716, 8⟩), ("a1", .num ⟨42961819, 8⟩), ("a2", .num ⟨468892341, 8⟩), ("doi", .str "10.1063/1.5090222")]),
        ("bj-eeq-mbd", [("s8", .num ⟨180656973, 8⟩), ("a1", .num ⟨42456967, 8⟩), ("a2", .num ⟨468132317, 8⟩), ("doi", .str "10.1063/1.5090222")])])]),
    ("mpw2plyp", [("d4", [("bj-eeq-atm", [("s6", .num ⟨7500, 4⟩), ("s8", .num ⟨45788846, 8⟩), ("a1", .num ⟨42997704, 8⟩), ("a2", .num ⟨507650682, 8⟩), ("doi", .str "10.1063/1.5090222")]),
        ("bj-eeq-mbd", [("s6", .num ⟨7500, 4⟩), ("s8", .num ⟨61161179, 8⟩), ("a1", .num ⟨43748316, 8⟩), ("a2", .num ⟨512540364, 8⟩), ("doi", .str "10.1063/1.5090222")])])]),
    ("mpwb1k", [("d4", [("bj-eeq-atm", [("s8", .num ⟨57338313, 8⟩), ("a1", .num ⟨44687975, 8⟩), ("a2", .num ⟨521266777, 8⟩), ("doi", .str "10.1063/1.5090222")]),
        ("bj-eeq-mbd", [("s8", .num ⟨62221146, 8⟩), ("a1", .num ⟨44216745, 8⟩), ("a2", .num ⟨521324659, 8⟩), ("doi", .str "10.1063/1.5090222")])])]),
    ("mpwlyp", [("d4", [("bj-eeq-atm", [("s8", .num ⟨125842942, 8⟩), ("a1", .num ⟨25773894, 8⟩), ("a2", .num ⟨502319542, 8⟩), ("doi", .str "10.1063/1.5090222")]),
        ("bj-eeq-mbd", [("s8", .num ⟨118243337, 8⟩), ("a1", .num ⟨38968985, 8⟩), ("a2", .num ⟨430835285, 8⟩), ("doi", .str "10.1063/1.5090222")])])]),
    ("mpwpw", [("d4", [("bj-eeq-atm", [("s8", .num ⟨182596836, 8⟩), ("a1", .num ⟨34526745, 8⟩), ("a2", .num ⟨484620734, 8⟩), ("doi", .str "10.1063/1.5090222")]),
        ("bj-eeq-mbd", [("s8", .num ⟨179674014, 8⟩), ("a1", .num ⟨33870479, 8⟩), ("a2", .num ⟨483442213, 8⟩), ("doi", .str "10.1063/1.5090222")])])]),
    ("o3lyp", [("d4", [("bj-eeq-atm", [("s8", .num ⟨175762508, 8⟩), ("a1", .num ⟨10348980, 8⟩), ("a2", .num ⟨616233282, 8⟩), ("doi", .str "10.1063/1.5090222")]),
        ("bj-eeq-mbd", [("s8", .num ⟨177793802, 8⟩), ("a1", .num ⟨9961745, 8⟩), ("a2", .num ⟨616089304, 8⟩), ("doi", .str "10.1063/1.5090222")])])]),
    ("olyp", [("d4", [("bj-eeq-atm", [("s8", .num ⟨274836820, 8⟩), ("a1", .num ⟨60184498, 8⟩), ("a2", .num ⟨253292167, 8⟩), ("doi", .str "10.1063/1.5090222")]),
        ("bj-eeq-mbd", [("s8", .num ⟨258717041, 8⟩), ("a1", .num ⟨59759271, 8⟩), ("a2", .num ⟨248760353, 8⟩), ("doi", .str "10.1063/1.5090222")])])]),
    ("opbe", [("d4", [("bj-eeq-atm", [("s8", .num ⟨306917417, 8⟩), ("a1", .num ⟨68267534, 8⟩), ("a2", .num ⟨222849018, 8⟩), ("doi", .str "10.1063/1.5090222")]),
        ("bj-eeq-mbd", [("s8", .num ⟨293544102, 8⟩), ("a1", .num ⟨67903933, 8⟩), ("a2", .num ⟨219810071, 8⟩), ("doi", .str "10.1063/1.5090222")])])]),
    ("pbe0_2", [("d4", [("bj-eeq-atm", [("s6", .num ⟨5000, 4⟩), ("s8", .num ⟨64299082, 8⟩), ("a1", .num ⟨76542115, 8⟩), ("a2", .num ⟨578578675, 8⟩), ("doi", .str "10.1063/1.5090222")]),
        ("bj-eeq-mbd", [("s6", .num ⟨5000, 4⟩), ("s8", .num ⟨98834859, 8⟩), ("a1", .num ⟨77911062, 8⟩), ("a2", .num ⟨590389569, 8⟩), ("doi", .str "10.1063/1.5090222")])])]),
    ("pbe0", [("d4", [("bj-eeq-atm", [("s8", .num ⟨120065498, 8⟩), ("a1", .num ⟨40085597, 8⟩), ("a2", .num ⟨502928789, 8⟩), ("doi", .str "10.1063/1.5090222")]),
        ("bj-eeq-mbd", [("s8", .num ⟨126829475, 8⟩), ("a1", .num ⟨39907098, 8⟩), ("a2", .num ⟨503951304, 8⟩), ("doi", .str "10.1063/1.5090222")])])]),
    ("pbe0_dh", [("d4", [("bj-eeq-atm", [("s6", .num ⟨8750, 4⟩), ("s8", .num ⟨96811578, 8⟩), ("a1", .num ⟨47592488, 8⟩), ("a2", .num ⟨508622873, 8⟩), ("doi", .str "10.1063/1.5090222")]),
        ("bj-eeq-mbd", [("s6", .num ⟨8750, 4⟩), ("s8", .num ⟨119306002, 8⟩), ("a1", .num ⟨46106784, 8⟩), ("a2", .num ⟨525210480, 8⟩), ("doi", .str "10.1063/1.5090222")])])]),
    ("pbe", [("d4", [("bj-eeq-atm", [("s8", .num ⟨95948085, 8⟩), ("a1", .num ⟨38574991, 8⟩), ("a2", .num ⟨480688534, 8⟩), ("doi", .str "10.1063/1.5090222")]),
        ("bj-eeq-mbd", [("s8", .num ⟨99924614, 8⟩), ("a1", .num ⟨38142528, 8⟩), ("a2", .num ⟨481839284, 8⟩), ("doi", .str "10.1063/1.5090222")])])]),
    ("pbesol", [("d4", [("bj-eeq-atm", [("s8", .num ⟨171885698, 8⟩), ("a1", .num ⟨47901421, 8⟩), ("a2", .num ⟨596771589, 8⟩)])])]),
    ("pw1pw", [("d4", [("bj-eeq-atm", [("s8", .num ⟨96850170, 8⟩), ("a1", .num ⟨42427511, 8⟩), ("a2", .num ⟨502060636, 8⟩), ("doi", .str "10.1063/1.5090222")]),
        ("bj-eeq-mbd", [("s8", .num ⟨109759050, 8⟩), ("a1", .num ⟨42759830, 8⟩), ("a2", .num ⟨504559572, 8⟩), ("doi", .str "10.1063/1.5090222")])])]),
    ("pw6b95", [("d4", [("bj-eeq-atm", [("s8", .num ⟨-31926054, 8⟩), ("a1", .num ⟨4142919, 8⟩), ("a2", .num ⟨584655608, 8⟩), ("doi", .str "10.1063/1.5090222")]),
        ("bj-eeq-mbd", [("s8", .num ⟨-31629935, 8⟩), ("a1", .num ⟨3999357, 8⟩), ("a2", .num ⟨583690254, 8⟩), ("doi", .str "10.1063/1.5090222")])])]),
    ("pw86pbe", [("d4", [("bj-eeq-atm", [("s8", .num ⟨121362856, 8⟩), ("a1", .num ⟨40510366, 8⟩), ("a2", .num ⟨466737724, 8⟩), ("doi", .str "10.1063/1.5090222")]),
        ("bj-eeq-mbd", [("s8", .num ⟨122842987, 8⟩), ("a1", .num ⟨39998824, 8⟩), ("a2", .num ⟨466739111, 8⟩), ("doi", .str "10.1063/1.5090222")])])]),
    ("pw91", [("d4", [("bj-eeq-atm", [("s8", .num ⟨77283111, 8⟩), ("a1", .num ⟨39581542, 8⟩), ("a2", .num ⟨493405761, 8⟩), ("doi", .str "10.1063/1.5090222")]),
        ("bj-eeq-mbd", [("s8", .num ⟨81406882, 8⟩), ("a1", .num ⟨34094706, 8⟩), ("a2", .num ⟨518568823, 8⟩), ("doi", .str "10.1063/1.5090222")])])]),
    ("pwp1", [("d4", [("bj-eeq-atm", [("s8", .num ⟨60492565, 8⟩), ("a1", .num ⟨46855837, 8⟩), ("a2", .num ⟨576921413, 8⟩), ("doi", .str "10.1063/1.5090222")]),
        ("bj-eeq-mbd", [("s8", .num ⟨95936222, 8⟩), ("a1", .num ⟨48552982, 8⟩), ("a2", .num ⟨584956411, 8⟩), ("doi", .str "10.1063/1.5090222")])])]),
    ("pwpb95", [("d4", [("bj-eeq-atm", [("s6", .num ⟨8200, 4⟩), ("s8", .num ⟨-34639127, 8⟩), ("a1", .num ⟨41080636, 8⟩), ("a2", .num ⟨383878274, 8⟩), ("doi", .str "10.1063/1.5090222")]),
        ("bj-eeq-mbd", [("s6", .num ⟨8200, 4⟩), ("s8", .num ⟨-46453780, 8⟩), ("a1", .num ⟨29884136, 8⟩), ("a2", .num ⟨387641255, 8⟩), ("doi", .str "10.1063/1.5090222")])])]),
    ("pwp", [("d4", [("bj-eeq-atm", [("s8", .num ⟨32801227, 8⟩), ("a1", .num ⟨35874687, 8⟩), ("a2", .num ⟨605861168, 8⟩), ("doi", .str "10.1063/1.5090222")]),
        ("bj-eeq-mbd", [("s8", .num ⟨66056055, 8⟩), ("a1", .num ⟨37768052, 8⟩), ("a2", .num ⟨614787138, 8⟩), ("doi", .str "10.1063/1.5090222")])])]),
    ("revpbe0", [("d4", [("bj-eeq-atm", [("s8", .num ⟨157185414, 8⟩), ("a1", .num ⟨38705966, 8⟩), ("a2", .num ⟨411028876, 8⟩), ("doi", .str "10.1063/1.5090222")]),
        ("bj-eeq-mbd", [("s8", .num ⟨147198256, 8⟩), ("a1", .num ⟨37471756, 8⟩), ("a2", .num ⟨408904369, 8⟩), ("doi", .str "10.1063/1.5090222")])])]),
    ("revpbe0dh", [("d4", [("bj-eeq-atm", [("s6", .num ⟨8750, 4⟩), ("s8", .num ⟨124456037, 8⟩), ("a1", .num ⟨36730560, 8⟩), ("a2", .num ⟨471126482, 8⟩), ("doi", .str "10.1063/1.5090222")]),
        ("bj-eeq-mbd", [("s6", .num ⟨8750, 4⟩), ("s8", .num ⟨122494188, 8⟩), ("a1", .num ⟨35904781, 8⟩), ("a2", .num ⟨470216012, 8⟩), ("doi", .str "10.1063/1.5090222")])])]),
    ("revpbe38", [("d4", [("bj-eeq-atm", [("s8", .num ⟨166597472, 8⟩), ("a1", .num ⟨39476833, 8⟩), ("a2", .num ⟨439026628, 8⟩), ("doi", .str "10.1063/1.5090222")]),
        ("bj-eeq-mbd", [("s8", .num ⟨160423529, 8⟩), ("a1", .num ⟨38938475, 8⟩), ("a2", .num ⟨435557832, 8⟩), ("doi", .str "10.1063/1.5090222")])])]),
    ("revpbe", [("d4", [("bj-eeq-atm", [("s8", .num ⟨174676530, 8⟩), ("a1", .num ⟨53634900, 8⟩), ("a2", .num ⟨307261485, 8⟩), ("doi", .str "10.1063/1.5090222")]),
        ("bj-eeq-mbd", [("s8", .num ⟨162543693, 8⟩), ("a1", .num ⟨54031831, 8⟩), ("a2", .num ⟨297965648, 8⟩), ("doi", .str "10.1063/1.5090222")])])]),
    ("revtpss0", [("d4", [("bj-eeq-atm", [("s8", .num ⟨154664499, 8⟩), ("a1", .num ⟨45890964, 8⟩), ("a2", .num ⟨478426405, 8⟩), ("doi", .str "10.1063/1.5090222")]),
        ("bj-eeq-mbd", [("s8", .num ⟨155321888, 8⟩), ("a1", .num ⟨45355319, 8⟩), ("a2", .num ⟨477588598, 8⟩), ("doi", .str "10.1063/1.5090222")])])]),
    ("revtpss", [("d4", [("bj-eeq-atm", [("s8", .num ⟨153089454, 8⟩), ("a1", .num ⟨44880597, 8⟩), ("a2", .num ⟨464042317, 8⟩), ("doi", .str "10.1063/1.5090222")]),
        ("bj-eeq-mbd", [("s8", .num ⟨151858035, 8⟩), ("a1", .num ⟨44243222, 8⟩), ("a2", .num ⟨462881620, 8⟩), ("doi", .str "10.1063/1.5090222")])])]),
    ("revtpssh", [("d4", [("bj-eeq-atm", [("s8", .num ⟨152740307, 8⟩), ("a1", .num ⟨45161957, 8⟩), ("a2", .num ⟨470779483, 8⟩), ("doi", .str "10.1063/1.5090222")]),
        ("bj-eeq-mbd", [("s8", .num ⟨152542064, 8⟩), ("a1", .num ⟨44570207, 8⟩), ("a2", .num ⟨469883717, 8⟩), ("doi", .str "10.1063/1.5090222")])])]),
    ("rpbe", [("d4", [("bj-eeq-atm", [("s8", .num ⟨131183787, 8⟩), ("a1", .num ⟨46169493, 8⟩), ("a2", .num ⟨315711757, 8⟩), ("doi", .str "10.1063/1.5090222")]),
        ("bj-eeq-mbd", [("s8", .num ⟨111793696, 8⟩), ("a1", .num ⟨44632488, 8⟩), ("a2", .num ⟨308890917, 8⟩), ("doi", .str "10.1063/1.5090222")])])]),
    ("rpw86pbe", [("d4", [("bj-eeq-atm", [("s8", .num ⟨112624034, 8⟩), ("a1", .num ⟨38151218, 8⟩), ("a2", .num ⟨475480472, 8⟩), ("doi", .str "10.1063/1.5090222")]),
        ("bj-eeq-mbd", [("s8", .num ⟨113795871, 8⟩), ("a1", .num ⟨37636536, 8⟩), ("a2", .num ⟨475236384, 8⟩), ("doi", .str "10.1063/1.5090222")])])]),
    ("scan", [("d4", [("bj-eeq-atm", [("s8", .num ⟨146126056, 8⟩), ("a1", .num ⟨62930855, 8⟩), ("a2", .num ⟨631284039, 8⟩), ("doi", .str "10.1063/1.5090222")]),
        ("bj-eeq-mbd", [("s8", .num ⟨175408315, 8⟩), ("a1", .num ⟨63571334, 8⟩), ("a2", .num ⟨635690748, 8⟩), ("doi", .str "10.1063/1.5090222")])])]),
    ("rscan", [("d4", [("bj-eeq-atm", [("s8", .num ⟨87728975, 8⟩), ("a1", .num ⟨49116966, 8⟩), ("a2", .num ⟨575859346, 8⟩), ("doi", .str "10.1063/5.0041008")])])]),
    ("r2scan", [("d4", [("bj-eeq-atm", [("s8", .num ⟨60187490, 8⟩), ("a1", .num ⟨51559235, 8⟩), ("a2", .num ⟨577342911, 8⟩), ("doi", .str "10.1063/5.0041008")])])]),
    ("r2scanh", [("d4", [("bj-eeq-atm", [("s8", .num ⟨8324, 4⟩), ("a1", .num ⟨4944, 4⟩), ("a2", .num ⟨59019, 4⟩), ("doi", .str "10.1063/5.0086040")])])]),
    ("r2scan0", [("d4", [("bj-eeq-atm", [("s8", .num ⟨8992, 4⟩), ("a1", .num ⟨4778, 4⟩), ("a2", .num ⟨58779, 4⟩), ("doi", .str "10.1063/5.0086040")])])]),
    ("r2scan50", [("d4", [("bj-eeq-atm", [("s8", .num ⟨10471, 4⟩), ("a1", .num ⟨4574, 4⟩), ("a2", .num ⟨58969, 4⟩), ("doi", .str "10.1063/5.0086040")])])]),
    ("r2scan-3c", [("d4", [("bj-eeq-atm", [("s8", .num ⟨0, 2⟩), ("a1", .num ⟨42, 2⟩), ("a2", .num ⟨565, 2⟩), ("s9", .num ⟨20, 1⟩), ("doi", .str "10.1063/5.0040021")])])]),
    ("tpss0", [("d4", [("bj-eeq-atm", [("s8", .num ⟨162438102, 8⟩), ("a1", .num ⟨40329022, 8⟩), ("a2", .num ⟨480537871, 8⟩), ("doi", .str "10.1063/1.5090222")]),
        ("bj-eeq-mbd", [("s8", .num ⟨166752698, 8⟩), ("a1", .num ⟨40074746, 8⟩), ("a2", .num ⟨480927196, 8⟩), ("doi", .str "10.1063/1.5090222")])])]),
    ("tpss", [("d4", [("bj-eeq-atm", [("s8", .num ⟨176596355, 8⟩), ("a1", .num ⟨42822303, 8⟩), ("a2", .num ⟨454257102, 8⟩), ("doi", .str "10.1063/1.5090222")]),
        ("bj-eeq-mbd", [("s8", .num ⟨191130849, 8⟩), ("a1", .num ⟨43332851, 8⟩), ("a2", .num ⟨456986797, 8⟩), ("doi", .str "10.1063/1.5090222")])])]),
    ("tpssh", [("d4", [("bj-eeq-atm", [("s8", .num ⟨185897750, 8⟩), ("a1", .num ⟨44286966, 8⟩), ("a2", .num ⟨460230534, 8⟩), ("doi", .str "10.1063/1.5090222")]),
        ("bj-eeq-mbd", [("s8", .num ⟨188783525, 8⟩), ("a1", .num ⟨43968167, 8⟩), ("a2", .num ⟨460342700, 8⟩), ("doi", .str "10.1063/1.5090222")])])]),
    ("b97d", [("d4", [("bj-eeq-atm", [("s8", .num ⟨169460052, 8⟩), ("a1", .num ⟨28904684, 8⟩), ("a2", .num ⟨413407323, 8⟩)])])]),
    ("wb97", [("d4", [("bj-eeq-atm", [("s8", .num ⟨655792598, 8⟩), ("a1", .num ⟨76666802, 8⟩), ("a2", .num ⟨836027334, 8⟩), ("doi", .str "10.1063/1.5090222")]),
        ("bj-eeq-mbd", [("s8", .num ⟨711022468, 8⟩), ("a1", .num ⟨76423345, 8⟩), ("a2", .num ⟨844559334, 8⟩), ("doi", .str "10.1063/1.5090222")])])]),
    ("wb97x", [("d4", [("bj-eeq-atm", [("s8", .num ⟨-7519516, 8⟩), ("a1", .num ⟨45094893, 8⟩), ("a2", .num ⟨678425255, 8⟩), ("doi", .str "10.1063/1.5090222")]),
        ("bj-eeq-mbd", [("s8", .num ⟨38815338, 8⟩), ("a1", .num ⟨47448629, 8⟩), ("a2", .num ⟨691367384, 8⟩), ("doi", .str "10.1063/1.5090222")])])]),
    ("wb97x-rev", [("d4", [("bj-eeq-atm", [("s8", .num ⟨4485, 4⟩), ("a1", .num ⟨3306, 4⟩), ("a2", .num ⟨4279, 3⟩), ("doi", .str "10.1063/5.0133026")])])]),
    ("wb97x-3c", [("d4", [("bj-eeq-atm", [("s8", .num ⟨0, 1⟩), ("a1", .num ⟨2464, 4⟩), ("a2", .num ⟨4737, 3⟩), ("doi", .str "10.1063/5.0133026")])])]),
    ("b97m", [("d4", [("bj-eeq-atm", [("s8", .num ⟨6633, 4⟩), ("a1", .num ⟨4288, 4⟩), ("a2", .num ⟨39935, 4⟩), ("doi", .str "10.1002/jcc.26411")])])]),
    ("wb97m", [("d4", [("bj-eeq-atm", [("s8", .num ⟨7761, 4⟩), ("a1", .num ⟨7514, 4⟩), ("a2", .num ⟨27099, 4⟩), ("doi", .str "10.1002/jcc.26411")])])]),
    ("wb97m-rev", [("d4", [("bj-eeq-atm", [("s8", .num ⟨842, 3⟩), ("a1", .num ⟨359, 3⟩), ("a2", .num ⟨4668, 3⟩), ("doi", .str "10.1021/acs.jctc.3c00717")])])]),
    ("x3lyp", [("d4", [("bj-eeq-atm", [("s8", .num ⟨154701429, 8⟩), ("a1", .num ⟨20318443, 8⟩), ("a2", .num ⟨561852648, 8⟩), ("doi", .str "10.1063/1.5090222")]),
        ("bj-eeq-mbd", [("s8", .num ⟨155067492, 8⟩), ("a1", .num ⟨19818545, 8⟩), ("a2", .num ⟨561262748, 8⟩), ("doi", .str "10.1063/1.5090222")])])]),
    ("xlyp", [("d4", [("bj-eeq-atm", [("s8", .num ⟨162972054, 8⟩), ("a1", .num ⟨11268673, 8⟩), ("a2", .num ⟨540786417, 8⟩), ("doi", .str "10.1063/1.5090222")]),
        ("bj-eeq-mbd", [("s8", .num ⟨151577878, 8⟩), ("a1", .num ⟨10026585, 8⟩), ("a2", .num ⟨537506460, 8⟩), ("doi", .str "10.1063/1.5090222")])])]),
    ("revdsdpbep86", [("d4", [("bj-eeq-atm", [("s6", .num ⟨5132, 4⟩), ("s8", .num ⟨0, 1⟩), ("a1", .num ⟨44, 2⟩), ("a2", .num ⟨360, 2⟩), ("doi", .str "10.1021/acs.jpca.9b03157")])])]),
    ("revdsdpbe", [("d4", [("bj-eeq-atm", [("s6", .num ⟨6706, 4⟩), ("s8", .num ⟨0, 1⟩), ("a1", .num ⟨40, 2⟩), ("a2", .num ⟨360, 2⟩), ("doi", .str "10.1021/acs.jpca.9b03157")])])]),
    ("revdsdblyp", [("d4", [("bj-eeq-atm", [("s6", .num ⟨6141, 4⟩), ("s8", .num ⟨0, 1⟩), ("a1", .num ⟨38, 2⟩), ("a2", .num ⟨352, 2⟩), ("doi", .str "10.1021/acs.jpca.9b03157")])])]),
    ("revdodpbep86", [("d4", [("bj-eeq-atm", [("s6", .num ⟨5552, 4⟩), ("s8", .num ⟨0, 1⟩), ("a1", .num ⟨44, 2⟩), ("a2", .num ⟨360, 2⟩), ("doi", .str "10.1021/acs.jpca.9b03157")])])]),
    ("dftb_3ob", [("d4", [("bj-eeq-two", [("s8", .num ⟨4727337, 7⟩), ("a1", .num ⟨5467502, 7⟩), ("a2", .num ⟨44955068, 7⟩), ("doi", .str "10.1063/1.5143190")]),
        ("bj-eeq-atm", [("s8", .num ⟨6635015, 7⟩), ("a1", .num ⟨5523240, 7⟩), ("a2", .num ⟨43537076, 7⟩), ("doi", .str "10.1063/1.5143190")])])]),
    ("dftb_matsci", [("d4", [("bj-eeq-two", [("s8", .num ⟨27711819, 7⟩), ("a1", .num ⟨4681712, 7⟩), ("a2", .num ⟨52918629, 7⟩), ("doi", .str "10.1063/1.5143190")]),
        ("bj-eeq-atm", [("s8", .num ⟨33157614, 7⟩), ("a1", .num ⟨4826330, 7⟩), ("a2", .num ⟨53811976, 7⟩), ("doi", .str "10.1063/1.5143190")])])]),
    ("dftb_mio", [("d4", [("bj-eeq-two", [("s8", .num ⟨11948145, 7⟩), ("a1", .num ⟨6074567, 7⟩), ("a2", .num ⟨49336133, 7⟩), ("doi", .str "10.1063/1.5143190")]),
        ("bj-eeq-atm", [("s8", .num ⟨12916225, 7⟩), ("a1", .num ⟨5965326, 7⟩), ("a2", .num ⟨48778602, 7⟩), ("doi", .str "10.1063/1.5143190")])])]),
    ("dftb_ob2", [("d4", [("bj-eeq-two", [("s8", .num ⟨27611320, 7⟩), ("a1", .num ⟨6037249, 7⟩), ("a2", .num ⟨53900004, 7⟩), ("doi", .str "10.1063/1.5143190")]),
        ("bj-eeq-atm", [("s8", .num ⟨29692689, 7⟩), ("a1", .num ⟨6068916, 7⟩), ("a2", .num ⟨54476789, 7⟩), ("doi", .str "10.1063/1.5143190")])])]),
    ("dftb_pbc", [("d4", [("bj-eeq-two", [("s8", .num ⟨17303734, 7⟩), ("a1", .num ⟨5546548, 7⟩), ("a2", .num ⟨47973454, 7⟩), ("doi", .str "10.1063/1.5143190")]),
        ("bj-eeq-atm", [("s8", .num ⟨21667394, 7⟩), ("a1", .num ⟨5646391, 7⟩), ("a2", .num ⟨49576353, 7⟩), ("doi", .str "10.1063/1.5143190")])])]),
    ("wr2scan", [("d4", [("bj-eeq-atm", [("s6", .num ⟨10000, 4⟩), ("s8", .num ⟨10000, 4⟩), ("a1", .num ⟨3834, 4⟩), ("a2", .num ⟨57889, 4⟩), ("doi", .str "10.1063/5.0174988")])])]),
    ("r2scan0-dh", [("d4", [("bj-eeq-atm", [("s6", .num ⟨9424, 4⟩), ("s8", .num ⟨3856, 4⟩), ("a1", .num ⟨4271, 4⟩), ("a2", .num ⟨58565, 4⟩), ("doi", .str "10.1063/5.0174988")])])]),
    ("r2scan-cidh", [("d4", [("bj-eeq-atm", [("s6", .num ⟨8666, 4⟩), ("s8", .num ⟨5336, 4⟩), ("a1", .num ⟨4171, 4⟩), ("a2", .num ⟨58565, 4⟩), ("doi", .str "10.1063/5.0174988")])])]),
    ("r2scan-qidh", [("d4", [("bj-eeq-atm", [("s6", .num ⟨7867, 4⟩), ("s8", .num ⟨2955, 4⟩), ("a1", .num ⟨4001, 4⟩), ("a2", .num ⟨58300, 4⟩), ("doi", .str "10.1063/5.0174988")])])]),
    ("r2scan-0-2", [("d4", [("bj-eeq-atm", [("s6", .num ⟨7386, 4⟩), ("s8", .num ⟨0, 4⟩), ("a1", .num ⟨4030, 4⟩), ("a2", .num ⟨55142, 4⟩), ("doi", .str "10.1063/5.0174988")])])]),
    ("pr2scan50", [("d4", [("bj-eeq-atm", [("s6", .num ⟨7964, 4⟩), ("s8", .num ⟨3421, 4⟩), ("a1", .num ⟨4663, 4⟩), ("a2", .num ⟨57916, 4⟩), ("doi", .str "10.1063/5.0174988")])])]),
    ("pr2scan69", [("d4", [("bj-eeq-atm", [("s6", .num ⟨7167, 4⟩), ("s8", .num ⟨0, 4⟩), ("a1", .num ⟨4644, 4⟩), ("a2", .num ⟨52563, 4⟩), ("doi", .str "10.1063/5.0174988")])])]),
    ("kpr2scan50", [("d4", [("bj-eeq-atm", [("s6", .num ⟨8402, 4⟩), ("s8", .num ⟨1212, 4⟩), ("a1", .num ⟨4382, 4⟩), ("a2", .num ⟨58232, 4⟩), ("doi", .str "10.1063/5.0174988")])])]),
    ("wpr2scan50", [("d4", [("bj-eeq-atm", [("s6", .num ⟨8143, 4⟩), ("s8", .num ⟨3842, 4⟩), ("a1", .num ⟨4135, 4⟩), ("a2", .num ⟨58773, 4⟩), ("doi", .str "10.1063/5.0174988")])])])]

/-- The files next to `loader.py`. -/
def paramFiles (method : String) : Option (ParamFile Block) :=
  if method = "d3" then some d3File else if method = "d4" then some d4File else none

end TadDftd4.Data
