/-!
# Expectation values

Generated by `tools/gen_data.py` from `data/r4r2.py`; do not edit.
-/

namespace TadDftd4.Data

/-- `data/r4r2.py:55-80 _r4_over_r2`, times `10^4` -/
def r4OverR2 : List Nat := [0, 80589, 34698, 290974, 148517, 118799, 78715, 55588, 47566, 38025,
   31036, 261552, 172304, 177210, 127442, 95361, 81652, 67463, 56004, 292012, 223934, 190598,
   168590, 154023, 125589, 134788, 122309, 112809, 105569, 101428, 94907, 134606, 108544, 89386,
   81350, 71251, 61971, 300162, 244103, 203537, 174780, 135528, 118451, 110355, 101997, 95414,
   90061, 86417, 89975, 140834, 118333, 100179, 93844, 84110, 75152, 327622, 275708, 231671,
   216003, 209615, 204562, 201010, 197475, 194828, 156013, 192362, 174717, 178321, 174237, 171954,
   171631, 145716, 158758, 138989, 124834, 114421, 102671, 83549, 78496, 73278, 74820, 135124,
   116554, 100959, 97340, 88584, 80125, 298135, 263157, 191885, 158542, 161305, 156161, 151226,
   161576, 146510, 147178, 139108, 135623, 132326, 129189, 126133, 123142, 148326, 123771, 106378,
   93638, 82297, 75667, 69456, 63946, 59159, 54929, 67286, 65144, 109169, 103600, 94723, 86641]

end TadDftd4.Data
