[{"strip": [49999695, 89602, 50000305, 1000000, 4984534, 1000000], "tree": "l", "n": 1}, {"strip": [49999387, 83490, 50000613, 1000000, 4811444, 1000000], "tree": "l", "n": 1}, {"strip": [49998831, 150981, 50001169, 1000000, 4576974, 1000000], "tree": "l", "n": 1}, {"strip": [49996309, 132853, 50003691, 1000000, 4293141, 1000000], "tree": "l", "n": 1}, {"strip": [49990029, 117806, 50009971, 1000000, 4042483, 1000000], "tree": "l", "n": 1}, {"strip": [49976296, 105178, 50023704, 1000000, 3819501, 1000000], "tree": "l", "n": 1}, {"strip": [49949297, 94477, 50050703, 1000000, 3619848, 1000000], "tree": "l", "n": 1}, {"strip": [49900678, 85330, 50099322, 1000000, 3440043, 1000000], "tree": "l", "n": 1}, {"strip": [49819268, 77450, 50180732, 1000000, 3277265, 1000000], "tree": "l", "n": 1}, {"strip": [49690962, 70614, 50309038, 1000000, 3129203, 1000000], "tree": "l", "n": 1}, {"strip": [49498733, 64644, 50501267, 1000000, 2993947, 1000000], "tree": "l", "n": 1}, {"strip": [49222742, 59401, 50777258, 1000000, 2869904, 1000000], "tree": "l", "n": 1}, {"strip": [48840473, 54770, 51159527, 1000000, 2755734, 1000000], "tree": "x(l)(l)", "n": 2}, {"strip": [48326842, 50661, 51673158, 1000000, 2650304, 1000000], "tree": "x(x(l)(l))(l)", "n": 3}, {"strip": [47654200, 23932, 52345800, 1000000, 2575713, 1000000], "tree": "x(x(l)(l))(l)", "n": 3}, {"strip": [47248856, 23067, 52751144, 1000000, 2528716, 1000000], "tree": "x(x(x(l)(l))(l))(l)", "n": 4}, {"strip": [46792092, 22248, 53207908, 1000000, 2483403, 1000000], "tree": "x(x(x(l)(l))(l))(l)", "n": 4}, {"strip": [46279551, 10831, 53720449, 1000000, 2450327, 1000000], "tree": "x(x(x(l)(l))(l))(l)", "n": 4}, {"strip": [46000923, 10641, 53999077, 1000000, 2428856, 1000000], "tree": "x(x(x(l)(l))(l))(l)", "n": 4}, {"strip": [45706576, 10458, 54293424, 1000000, 2407759, 1000000], "tree": "x(x(x(l)(l))(l))(l)", "n": 4}, {"strip": [45395867, 10278, 54604133, 1000000, 2387024, 1000000], "tree": "x(x(x(l)(l))(l))(l)", "n": 4}, {"strip": [45068121, 5073, 54931879, 1000000, 2371674, 1000000], "tree": "x(x(x(l)(l))(l))(l)", "n": 4}, {"strip": [44897639, 5031, 55102361, 1000000, 2361572, 1000000], "tree": "x(x(x(l)(l))(l))(l)", "n": 4}, {"strip": [44722629, 4988, 55277371, 1000000, 2351555, 1000000], "tree": "x(x(x(l)(l))(l))(l)", "n": 4}, {"strip": [44542994, 4946, 55457006, 1000000, 2341623, 1000000], "tree": "x(x(x(l)(l))(l))(l)", "n": 4}, {"strip": [44358637, 2948, 55641363, 1000000, 2333730, 1000000], "tree": "x(x(x(l)(l))(l))(l)", "n": 4}, {"strip": [44245713, 2933, 55754287, 1000000, 2327851, 1000000], "tree": "x(x(x(l)(l))(l))(l)", "n": 4}, {"strip": [44131030, 5821, 55868970, 1000000, 2319098, 1000000], "tree": "x(x(x(l)(l))(l))(l)", "n": 4}, {"strip": [43896292, 5763, 56103708, 1000000, 2307515, 1000000], "tree": "x(x(x(l)(l))(l))(l)", "n": 4}, {"strip": [43654231, 3811, 56345769, 1000000, 2297943, 1000000], "tree": "x(x(x(l)(l))(l))(l)", "n": 4}, {"strip": [43488690, 3786, 56511310, 1000000, 2290348, 1000000], "tree": "x(x(x(x(l)(l))(l))(l))(l)", "n": 5}, {"strip": [43319742, 3761, 56680258, 1000000, 2282803, 1000000], "tree": "x(x(x(x(l)(l))(l))(x(l)(l)))(l)", "n": 6}, {"strip": [43147323, 3736, 56852677, 1000000, 2275308, 1000000], "tree": "x(x(x(x(l)(l))(l))(x(l)(l)))(l)", "n": 6}, {"strip": [42971365, 3712, 57028635, 1000000, 2267862, 1000000], "tree": "x(x(x(x(l)(l))(l))(x(l)(l)))(l)", "n": 6}, {"strip": [42791799, 1847, 57208201, 1000000, 2262305, 1000000], "tree": "x(x(x(x(l)(l))(l))(x(l)(l)))(l)", "n": 6}, {"strip": [42700640, 1841, 57299360, 1000000, 2258618, 1000000], "tree": "x(x(x(x(l)(l))(l))(x(l)(l)))(l)", "n": 6}, {"strip": [42608551, 1835, 57391449, 1000000, 2254943, 1000000], "tree": "x(x(x(x(l)(l))(l))(x(l)(l)))(l)", "n": 6}, {"strip": [42515524, 1829, 57484476, 1000000, 2251281, 1000000], "tree": "x(x(x(x(l)(l))(l))(x(l)(l)))(l)", "n": 6}, {"strip": [42421546, 1823, 57578454, 1000000, 2247630, 1000000], "tree": "x(x(x(x(l)(l))(l))(x(l)(l)))(l)", "n": 6}, {"strip": [42326610, 1817, 57673390, 1000000, 2243991, 1000000], "tree": "x(x(x(x(l)(l))(l))(x(l)(l)))(l)", "n": 6}, {"strip": [42230704, 1812, 57769296, 1000000, 2240364, 1000000], "tree": "x(x(x(x(l)(l))(l))(x(l)(l)))(l)", "n": 6}, {"strip": [42133817, 904, 57866183, 1000000, 2237650, 1000000], "tree": "x(x(x(x(l)(l))(l))(x(l)(l)))(l)", "n": 6}, {"strip": [42085003, 902, 57914997, 1000000, 2235845, 1000000], "tree": "x(x(x(x(l)(l))(l))(x(l)(l)))(l)", "n": 6}, {"strip": [42035939, 901, 57964061, 1000000, 2234043, 1000000], "tree": "x(x(x(x(l)(l))(l))(x(l)(l)))(l)", "n": 6}, {"strip": [41986625, 899, 58013375, 1000000, 2232244, 1000000], "tree": "x(x(x(x(l)(l))(l))(x(l)(l)))(l)", "n": 6}, {"strip": [41937059, 898, 58062941, 1000000, 2230448, 1000000], "tree": "x(x(x(x(l)(l))(l))(x(l)(l)))(l)", "n": 6}, {"strip": [41887239, 897, 58112761, 1000000, 2228655, 1000000], "tree": "x(x(x(x(l)(l))(l))(x(l)(l)))(l)", "n": 6}, {"strip": [41837165, 895, 58162835, 1000000, 2226864, 1000000], "tree": "x(x(x(x(l)(l))(l))(x(l)(l)))(l)", "n": 6}, {"strip": [41786834, 447, 58213166, 1000000, 2225523, 1000000], "tree": "x(x(x(x(l)(l))(l))(x(l)(l)))(l)", "n": 6}, {"strip": [41761572, 447, 58238428, 1000000, 2224630, 1000000], "tree": "x(x(x(x(l)(l))(l))(x(l)(l)))(l)", "n": 6}]