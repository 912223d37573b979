/-! Generated by tools/gen_tables.py from /repo/encoding_tables/whatwg/index-jis0208.txt. -/

namespace Verif.Spec.Published.Jis0208

/-- Lines (pointer, code point) with pointer in [0, 188).  encoding_tables/whatwg/index-jis0208.txt:7-153 -/
def row0 : List (Nat × Nat) := [
  (0, 0x3000), (1, 0x3001), (2, 0x3002), (3, 0xff0c), (4, 0xff0e), (5, 0x30fb), (6, 0xff1a),
  (7, 0xff1b), (8, 0xff1f), (9, 0xff01), (10, 0x309b), (11, 0x309c), (12, 0xb4), (13, 0xff40),
  (14, 0xa8), (15, 0xff3e), (16, 0xffe3), (17, 0xff3f), (18, 0x30fd), (19, 0x30fe),
  (20, 0x309d), (21, 0x309e), (22, 0x3003), (23, 0x4edd), (24, 0x3005), (25, 0x3006),
  (26, 0x3007), (27, 0x30fc), (28, 0x2015), (29, 0x2010), (30, 0xff0f), (31, 0xff3c),
  (32, 0xff5e), (33, 0x2225), (34, 0xff5c), (35, 0x2026), (36, 0x2025), (37, 0x2018),
  (38, 0x2019), (39, 0x201c), (40, 0x201d), (41, 0xff08), (42, 0xff09), (43, 0x3014),
  (44, 0x3015), (45, 0xff3b), (46, 0xff3d), (47, 0xff5b), (48, 0xff5d), (49, 0x3008),
  (50, 0x3009), (51, 0x300a), (52, 0x300b), (53, 0x300c), (54, 0x300d), (55, 0x300e),
  (56, 0x300f), (57, 0x3010), (58, 0x3011), (59, 0xff0b), (60, 0xff0d), (61, 0xb1), (62, 0xd7),
  (63, 0xf7), (64, 0xff1d), (65, 0x2260), (66, 0xff1c), (67, 0xff1e), (68, 0x2266),
  (69, 0x2267), (70, 0x221e), (71, 0x2234), (72, 0x2642), (73, 0x2640), (74, 0xb0),
  (75, 0x2032), (76, 0x2033), (77, 0x2103), (78, 0xffe5), (79, 0xff04), (80, 0xffe0),
  (81, 0xffe1), (82, 0xff05), (83, 0xff03), (84, 0xff06), (85, 0xff0a), (86, 0xff20),
  (87, 0xa7), (88, 0x2606), (89, 0x2605), (90, 0x25cb), (91, 0x25cf), (92, 0x25ce),
  (93, 0x25c7), (94, 0x25c6), (95, 0x25a1), (96, 0x25a0), (97, 0x25b3), (98, 0x25b2),
  (99, 0x25bd), (100, 0x25bc), (101, 0x203b), (102, 0x3012), (103, 0x2192), (104, 0x2190),
  (105, 0x2191), (106, 0x2193), (107, 0x3013), (119, 0x2208), (120, 0x220b), (121, 0x2286),
  (122, 0x2287), (123, 0x2282), (124, 0x2283), (125, 0x222a), (126, 0x2229), (135, 0x2227),
  (136, 0x2228), (137, 0xffe2), (138, 0x21d2), (139, 0x21d4), (140, 0x2200), (141, 0x2203),
  (153, 0x2220), (154, 0x22a5), (155, 0x2312), (156, 0x2202), (157, 0x2207), (158, 0x2261),
  (159, 0x2252), (160, 0x226a), (161, 0x226b), (162, 0x221a), (163, 0x223d), (164, 0x221d),
  (165, 0x2235), (166, 0x222b), (167, 0x222c), (175, 0x212b), (176, 0x2030), (177, 0x266f),
  (178, 0x266d), (179, 0x266a), (180, 0x2020), (181, 0x2021), (182, 0xb6), (187, 0x25ef)]

/-- Lines (pointer, code point) with pointer in [188, 376).  encoding_tables/whatwg/index-jis0208.txt:154-298 -/
def row1 : List (Nat × Nat) := [
  (203, 0xff10), (204, 0xff11), (205, 0xff12), (206, 0xff13), (207, 0xff14), (208, 0xff15),
  (209, 0xff16), (210, 0xff17), (211, 0xff18), (212, 0xff19), (220, 0xff21), (221, 0xff22),
  (222, 0xff23), (223, 0xff24), (224, 0xff25), (225, 0xff26), (226, 0xff27), (227, 0xff28),
  (228, 0xff29), (229, 0xff2a), (230, 0xff2b), (231, 0xff2c), (232, 0xff2d), (233, 0xff2e),
  (234, 0xff2f), (235, 0xff30), (236, 0xff31), (237, 0xff32), (238, 0xff33), (239, 0xff34),
  (240, 0xff35), (241, 0xff36), (242, 0xff37), (243, 0xff38), (244, 0xff39), (245, 0xff3a),
  (252, 0xff41), (253, 0xff42), (254, 0xff43), (255, 0xff44), (256, 0xff45), (257, 0xff46),
  (258, 0xff47), (259, 0xff48), (260, 0xff49), (261, 0xff4a), (262, 0xff4b), (263, 0xff4c),
  (264, 0xff4d), (265, 0xff4e), (266, 0xff4f), (267, 0xff50), (268, 0xff51), (269, 0xff52),
  (270, 0xff53), (271, 0xff54), (272, 0xff55), (273, 0xff56), (274, 0xff57), (275, 0xff58),
  (276, 0xff59), (277, 0xff5a), (282, 0x3041), (283, 0x3042), (284, 0x3043), (285, 0x3044),
  (286, 0x3045), (287, 0x3046), (288, 0x3047), (289, 0x3048), (290, 0x3049), (291, 0x304a),
  (292, 0x304b), (293, 0x304c), (294, 0x304d), (295, 0x304e), (296, 0x304f), (297, 0x3050),
  (298, 0x3051), (299, 0x3052), (300, 0x3053), (301, 0x3054), (302, 0x3055), (303, 0x3056),
  (304, 0x3057), (305, 0x3058), (306, 0x3059), (307, 0x305a), (308, 0x305b), (309, 0x305c),
  (310, 0x305d), (311, 0x305e), (312, 0x305f), (313, 0x3060), (314, 0x3061), (315, 0x3062),
  (316, 0x3063), (317, 0x3064), (318, 0x3065), (319, 0x3066), (320, 0x3067), (321, 0x3068),
  (322, 0x3069), (323, 0x306a), (324, 0x306b), (325, 0x306c), (326, 0x306d), (327, 0x306e),
  (328, 0x306f), (329, 0x3070), (330, 0x3071), (331, 0x3072), (332, 0x3073), (333, 0x3074),
  (334, 0x3075), (335, 0x3076), (336, 0x3077), (337, 0x3078), (338, 0x3079), (339, 0x307a),
  (340, 0x307b), (341, 0x307c), (342, 0x307d), (343, 0x307e), (344, 0x307f), (345, 0x3080),
  (346, 0x3081), (347, 0x3082), (348, 0x3083), (349, 0x3084), (350, 0x3085), (351, 0x3086),
  (352, 0x3087), (353, 0x3088), (354, 0x3089), (355, 0x308a), (356, 0x308b), (357, 0x308c),
  (358, 0x308d), (359, 0x308e), (360, 0x308f), (361, 0x3090), (362, 0x3091), (363, 0x3092),
  (364, 0x3093)]

/-- Lines (pointer, code point) with pointer in [376, 564).  encoding_tables/whatwg/index-jis0208.txt:299-432 -/
def row2 : List (Nat × Nat) := [
  (376, 0x30a1), (377, 0x30a2), (378, 0x30a3), (379, 0x30a4), (380, 0x30a5), (381, 0x30a6),
  (382, 0x30a7), (383, 0x30a8), (384, 0x30a9), (385, 0x30aa), (386, 0x30ab), (387, 0x30ac),
  (388, 0x30ad), (389, 0x30ae), (390, 0x30af), (391, 0x30b0), (392, 0x30b1), (393, 0x30b2),
  (394, 0x30b3), (395, 0x30b4), (396, 0x30b5), (397, 0x30b6), (398, 0x30b7), (399, 0x30b8),
  (400, 0x30b9), (401, 0x30ba), (402, 0x30bb), (403, 0x30bc), (404, 0x30bd), (405, 0x30be),
  (406, 0x30bf), (407, 0x30c0), (408, 0x30c1), (409, 0x30c2), (410, 0x30c3), (411, 0x30c4),
  (412, 0x30c5), (413, 0x30c6), (414, 0x30c7), (415, 0x30c8), (416, 0x30c9), (417, 0x30ca),
  (418, 0x30cb), (419, 0x30cc), (420, 0x30cd), (421, 0x30ce), (422, 0x30cf), (423, 0x30d0),
  (424, 0x30d1), (425, 0x30d2), (426, 0x30d3), (427, 0x30d4), (428, 0x30d5), (429, 0x30d6),
  (430, 0x30d7), (431, 0x30d8), (432, 0x30d9), (433, 0x30da), (434, 0x30db), (435, 0x30dc),
  (436, 0x30dd), (437, 0x30de), (438, 0x30df), (439, 0x30e0), (440, 0x30e1), (441, 0x30e2),
  (442, 0x30e3), (443, 0x30e4), (444, 0x30e5), (445, 0x30e6), (446, 0x30e7), (447, 0x30e8),
  (448, 0x30e9), (449, 0x30ea), (450, 0x30eb), (451, 0x30ec), (452, 0x30ed), (453, 0x30ee),
  (454, 0x30ef), (455, 0x30f0), (456, 0x30f1), (457, 0x30f2), (458, 0x30f3), (459, 0x30f4),
  (460, 0x30f5), (461, 0x30f6), (470, 0x391), (471, 0x392), (472, 0x393), (473, 0x394),
  (474, 0x395), (475, 0x396), (476, 0x397), (477, 0x398), (478, 0x399), (479, 0x39a),
  (480, 0x39b), (481, 0x39c), (482, 0x39d), (483, 0x39e), (484, 0x39f), (485, 0x3a0),
  (486, 0x3a1), (487, 0x3a3), (488, 0x3a4), (489, 0x3a5), (490, 0x3a6), (491, 0x3a7),
  (492, 0x3a8), (493, 0x3a9), (502, 0x3b1), (503, 0x3b2), (504, 0x3b3), (505, 0x3b4),
  (506, 0x3b5), (507, 0x3b6), (508, 0x3b7), (509, 0x3b8), (510, 0x3b9), (511, 0x3ba),
  (512, 0x3bb), (513, 0x3bc), (514, 0x3bd), (515, 0x3be), (516, 0x3bf), (517, 0x3c0),
  (518, 0x3c1), (519, 0x3c3), (520, 0x3c4), (521, 0x3c5), (522, 0x3c6), (523, 0x3c7),
  (524, 0x3c8), (525, 0x3c9)]

/-- Lines (pointer, code point) with pointer in [564, 752).  encoding_tables/whatwg/index-jis0208.txt:433-530 -/
def row3 : List (Nat × Nat) := [
  (564, 0x410), (565, 0x411), (566, 0x412), (567, 0x413), (568, 0x414), (569, 0x415),
  (570, 0x401), (571, 0x416), (572, 0x417), (573, 0x418), (574, 0x419), (575, 0x41a),
  (576, 0x41b), (577, 0x41c), (578, 0x41d), (579, 0x41e), (580, 0x41f), (581, 0x420),
  (582, 0x421), (583, 0x422), (584, 0x423), (585, 0x424), (586, 0x425), (587, 0x426),
  (588, 0x427), (589, 0x428), (590, 0x429), (591, 0x42a), (592, 0x42b), (593, 0x42c),
  (594, 0x42d), (595, 0x42e), (596, 0x42f), (612, 0x430), (613, 0x431), (614, 0x432),
  (615, 0x433), (616, 0x434), (617, 0x435), (618, 0x451), (619, 0x436), (620, 0x437),
  (621, 0x438), (622, 0x439), (623, 0x43a), (624, 0x43b), (625, 0x43c), (626, 0x43d),
  (627, 0x43e), (628, 0x43f), (629, 0x440), (630, 0x441), (631, 0x442), (632, 0x443),
  (633, 0x444), (634, 0x445), (635, 0x446), (636, 0x447), (637, 0x448), (638, 0x449),
  (639, 0x44a), (640, 0x44b), (641, 0x44c), (642, 0x44d), (643, 0x44e), (644, 0x44f),
  (658, 0x2500), (659, 0x2502), (660, 0x250c), (661, 0x2510), (662, 0x2518), (663, 0x2514),
  (664, 0x251c), (665, 0x252c), (666, 0x2524), (667, 0x2534), (668, 0x253c), (669, 0x2501),
  (670, 0x2503), (671, 0x250f), (672, 0x2513), (673, 0x251b), (674, 0x2517), (675, 0x2523),
  (676, 0x2533), (677, 0x252b), (678, 0x253b), (679, 0x254b), (680, 0x2520), (681, 0x252f),
  (682, 0x2528), (683, 0x2537), (684, 0x253f), (685, 0x251d), (686, 0x2530), (687, 0x2525),
  (688, 0x2538), (689, 0x2542)]

/-- Lines (pointer, code point) with pointer in [752, 940).  encoding_tables/whatwg/index-jis0208.txt (no line) -/
def row4 : List (Nat × Nat) := []

/-- Lines (pointer, code point) with pointer in [940, 1128).  encoding_tables/whatwg/index-jis0208.txt (no line) -/
def row5 : List (Nat × Nat) := []

/-- Lines (pointer, code point) with pointer in [1128, 1316).  encoding_tables/whatwg/index-jis0208.txt:531-613 -/
def row6 : List (Nat × Nat) := [
  (1128, 0x2460), (1129, 0x2461), (1130, 0x2462), (1131, 0x2463), (1132, 0x2464),
  (1133, 0x2465), (1134, 0x2466), (1135, 0x2467), (1136, 0x2468), (1137, 0x2469),
  (1138, 0x246a), (1139, 0x246b), (1140, 0x246c), (1141, 0x246d), (1142, 0x246e),
  (1143, 0x246f), (1144, 0x2470), (1145, 0x2471), (1146, 0x2472), (1147, 0x2473),
  (1148, 0x2160), (1149, 0x2161), (1150, 0x2162), (1151, 0x2163), (1152, 0x2164),
  (1153, 0x2165), (1154, 0x2166), (1155, 0x2167), (1156, 0x2168), (1157, 0x2169),
  (1159, 0x3349), (1160, 0x3314), (1161, 0x3322), (1162, 0x334d), (1163, 0x3318),
  (1164, 0x3327), (1165, 0x3303), (1166, 0x3336), (1167, 0x3351), (1168, 0x3357),
  (1169, 0x330d), (1170, 0x3326), (1171, 0x3323), (1172, 0x332b), (1173, 0x334a),
  (1174, 0x333b), (1175, 0x339c), (1176, 0x339d), (1177, 0x339e), (1178, 0x338e),
  (1179, 0x338f), (1180, 0x33c4), (1181, 0x33a1), (1190, 0x337b), (1191, 0x301d),
  (1192, 0x301f), (1193, 0x2116), (1194, 0x33cd), (1195, 0x2121), (1196, 0x32a4),
  (1197, 0x32a5), (1198, 0x32a6), (1199, 0x32a7), (1200, 0x32a8), (1201, 0x3231),
  (1202, 0x3232), (1203, 0x3239), (1204, 0x337e), (1205, 0x337d), (1206, 0x337c),
  (1207, 0x2252), (1208, 0x2261), (1209, 0x222b), (1210, 0x222e), (1211, 0x2211),
  (1212, 0x221a), (1213, 0x22a5), (1214, 0x2220), (1215, 0x221f), (1216, 0x22bf),
  (1217, 0x2235), (1218, 0x2229), (1219, 0x222a)]

/-- Lines (pointer, code point) with pointer in [1316, 1504).  encoding_tables/whatwg/index-jis0208.txt:614-707 -/
def row7 : List (Nat × Nat) := [
  (1410, 0x4e9c), (1411, 0x5516), (1412, 0x5a03), (1413, 0x963f), (1414, 0x54c0),
  (1415, 0x611b), (1416, 0x6328), (1417, 0x59f6), (1418, 0x9022), (1419, 0x8475),
  (1420, 0x831c), (1421, 0x7a50), (1422, 0x60aa), (1423, 0x63e1), (1424, 0x6e25),
  (1425, 0x65ed), (1426, 0x8466), (1427, 0x82a6), (1428, 0x9bf5), (1429, 0x6893),
  (1430, 0x5727), (1431, 0x65a1), (1432, 0x6271), (1433, 0x5b9b), (1434, 0x59d0),
  (1435, 0x867b), (1436, 0x98f4), (1437, 0x7d62), (1438, 0x7dbe), (1439, 0x9b8e),
  (1440, 0x6216), (1441, 0x7c9f), (1442, 0x88b7), (1443, 0x5b89), (1444, 0x5eb5),
  (1445, 0x6309), (1446, 0x6697), (1447, 0x6848), (1448, 0x95c7), (1449, 0x978d),
  (1450, 0x674f), (1451, 0x4ee5), (1452, 0x4f0a), (1453, 0x4f4d), (1454, 0x4f9d),
  (1455, 0x5049), (1456, 0x56f2), (1457, 0x5937), (1458, 0x59d4), (1459, 0x5a01),
  (1460, 0x5c09), (1461, 0x60df), (1462, 0x610f), (1463, 0x6170), (1464, 0x6613),
  (1465, 0x6905), (1466, 0x70ba), (1467, 0x754f), (1468, 0x7570), (1469, 0x79fb),
  (1470, 0x7dad), (1471, 0x7def), (1472, 0x80c3), (1473, 0x840e), (1474, 0x8863),
  (1475, 0x8b02), (1476, 0x9055), (1477, 0x907a), (1478, 0x533b), (1479, 0x4e95),
  (1480, 0x4ea5), (1481, 0x57df), (1482, 0x80b2), (1483, 0x90c1), (1484, 0x78ef),
  (1485, 0x4e00), (1486, 0x58f1), (1487, 0x6ea2), (1488, 0x9038), (1489, 0x7a32),
  (1490, 0x8328), (1491, 0x828b), (1492, 0x9c2f), (1493, 0x5141), (1494, 0x5370),
  (1495, 0x54bd), (1496, 0x54e1), (1497, 0x56e0), (1498, 0x59fb), (1499, 0x5f15),
  (1500, 0x98f2), (1501, 0x6deb), (1502, 0x80e4), (1503, 0x852d)]

/-- Lines (pointer, code point) with pointer in [1504, 1692).  encoding_tables/whatwg/index-jis0208.txt:708-895 -/
def row8 : List (Nat × Nat) := [
  (1504, 0x9662), (1505, 0x9670), (1506, 0x96a0), (1507, 0x97fb), (1508, 0x540b),
  (1509, 0x53f3), (1510, 0x5b87), (1511, 0x70cf), (1512, 0x7fbd), (1513, 0x8fc2),
  (1514, 0x96e8), (1515, 0x536f), (1516, 0x9d5c), (1517, 0x7aba), (1518, 0x4e11),
  (1519, 0x7893), (1520, 0x81fc), (1521, 0x6e26), (1522, 0x5618), (1523, 0x5504),
  (1524, 0x6b1d), (1525, 0x851a), (1526, 0x9c3b), (1527, 0x59e5), (1528, 0x53a9),
  (1529, 0x6d66), (1530, 0x74dc), (1531, 0x958f), (1532, 0x5642), (1533, 0x4e91),
  (1534, 0x904b), (1535, 0x96f2), (1536, 0x834f), (1537, 0x990c), (1538, 0x53e1),
  (1539, 0x55b6), (1540, 0x5b30), (1541, 0x5f71), (1542, 0x6620), (1543, 0x66f3),
  (1544, 0x6804), (1545, 0x6c38), (1546, 0x6cf3), (1547, 0x6d29), (1548, 0x745b),
  (1549, 0x76c8), (1550, 0x7a4e), (1551, 0x9834), (1552, 0x82f1), (1553, 0x885b),
  (1554, 0x8a60), (1555, 0x92ed), (1556, 0x6db2), (1557, 0x75ab), (1558, 0x76ca),
  (1559, 0x99c5), (1560, 0x60a6), (1561, 0x8b01), (1562, 0x8d8a), (1563, 0x95b2),
  (1564, 0x698e), (1565, 0x53ad), (1566, 0x5186), (1567, 0x5712), (1568, 0x5830),
  (1569, 0x5944), (1570, 0x5bb4), (1571, 0x5ef6), (1572, 0x6028), (1573, 0x63a9),
  (1574, 0x63f4), (1575, 0x6cbf), (1576, 0x6f14), (1577, 0x708e), (1578, 0x7114),
  (1579, 0x7159), (1580, 0x71d5), (1581, 0x733f), (1582, 0x7e01), (1583, 0x8276),
  (1584, 0x82d1), (1585, 0x8597), (1586, 0x9060), (1587, 0x925b), (1588, 0x9d1b),
  (1589, 0x5869), (1590, 0x65bc), (1591, 0x6c5a), (1592, 0x7525), (1593, 0x51f9),
  (1594, 0x592e), (1595, 0x5965), (1596, 0x5f80), (1597, 0x5fdc), (1598, 0x62bc),
  (1599, 0x65fa), (1600, 0x6a2a), (1601, 0x6b27), (1602, 0x6bb4), (1603, 0x738b),
  (1604, 0x7fc1), (1605, 0x8956), (1606, 0x9d2c), (1607, 0x9d0e), (1608, 0x9ec4),
  (1609, 0x5ca1), (1610, 0x6c96), (1611, 0x837b), (1612, 0x5104), (1613, 0x5c4b),
  (1614, 0x61b6), (1615, 0x81c6), (1616, 0x6876), (1617, 0x7261), (1618, 0x4e59),
  (1619, 0x4ffa), (1620, 0x5378), (1621, 0x6069), (1622, 0x6e29), (1623, 0x7a4f),
  (1624, 0x97f3), (1625, 0x4e0b), (1626, 0x5316), (1627, 0x4eee), (1628, 0x4f55),
  (1629, 0x4f3d), (1630, 0x4fa1), (1631, 0x4f73), (1632, 0x52a0), (1633, 0x53ef),
  (1634, 0x5609), (1635, 0x590f), (1636, 0x5ac1), (1637, 0x5bb6), (1638, 0x5be1),
  (1639, 0x79d1), (1640, 0x6687), (1641, 0x679c), (1642, 0x67b6), (1643, 0x6b4c),
  (1644, 0x6cb3), (1645, 0x706b), (1646, 0x73c2), (1647, 0x798d), (1648, 0x79be),
  (1649, 0x7a3c), (1650, 0x7b87), (1651, 0x82b1), (1652, 0x82db), (1653, 0x8304),
  (1654, 0x8377), (1655, 0x83ef), (1656, 0x83d3), (1657, 0x8766), (1658, 0x8ab2),
  (1659, 0x5629), (1660, 0x8ca8), (1661, 0x8fe6), (1662, 0x904e), (1663, 0x971e),
  (1664, 0x868a), (1665, 0x4fc4), (1666, 0x5ce8), (1667, 0x6211), (1668, 0x7259),
  (1669, 0x753b), (1670, 0x81e5), (1671, 0x82bd), (1672, 0x86fe), (1673, 0x8cc0),
  (1674, 0x96c5), (1675, 0x9913), (1676, 0x99d5), (1677, 0x4ecb), (1678, 0x4f1a),
  (1679, 0x89e3), (1680, 0x56de), (1681, 0x584a), (1682, 0x58ca), (1683, 0x5efb),
  (1684, 0x5feb), (1685, 0x602a), (1686, 0x6094), (1687, 0x6062), (1688, 0x61d0),
  (1689, 0x6212), (1690, 0x62d0), (1691, 0x6539)]

/-- Lines (pointer, code point) with pointer in [1692, 1880).  encoding_tables/whatwg/index-jis0208.txt:896-1083 -/
def row9 : List (Nat × Nat) := [
  (1692, 0x9b41), (1693, 0x6666), (1694, 0x68b0), (1695, 0x6d77), (1696, 0x7070),
  (1697, 0x754c), (1698, 0x7686), (1699, 0x7d75), (1700, 0x82a5), (1701, 0x87f9),
  (1702, 0x958b), (1703, 0x968e), (1704, 0x8c9d), (1705, 0x51f1), (1706, 0x52be),
  (1707, 0x5916), (1708, 0x54b3), (1709, 0x5bb3), (1710, 0x5d16), (1711, 0x6168),
  (1712, 0x6982), (1713, 0x6daf), (1714, 0x788d), (1715, 0x84cb), (1716, 0x8857),
  (1717, 0x8a72), (1718, 0x93a7), (1719, 0x9ab8), (1720, 0x6d6c), (1721, 0x99a8),
  (1722, 0x86d9), (1723, 0x57a3), (1724, 0x67ff), (1725, 0x86ce), (1726, 0x920e),
  (1727, 0x5283), (1728, 0x5687), (1729, 0x5404), (1730, 0x5ed3), (1731, 0x62e1),
  (1732, 0x64b9), (1733, 0x683c), (1734, 0x6838), (1735, 0x6bbb), (1736, 0x7372),
  (1737, 0x78ba), (1738, 0x7a6b), (1739, 0x899a), (1740, 0x89d2), (1741, 0x8d6b),
  (1742, 0x8f03), (1743, 0x90ed), (1744, 0x95a3), (1745, 0x9694), (1746, 0x9769),
  (1747, 0x5b66), (1748, 0x5cb3), (1749, 0x697d), (1750, 0x984d), (1751, 0x984e),
  (1752, 0x639b), (1753, 0x7b20), (1754, 0x6a2b), (1755, 0x6a7f), (1756, 0x68b6),
  (1757, 0x9c0d), (1758, 0x6f5f), (1759, 0x5272), (1760, 0x559d), (1761, 0x6070),
  (1762, 0x62ec), (1763, 0x6d3b), (1764, 0x6e07), (1765, 0x6ed1), (1766, 0x845b),
  (1767, 0x8910), (1768, 0x8f44), (1769, 0x4e14), (1770, 0x9c39), (1771, 0x53f6),
  (1772, 0x691b), (1773, 0x6a3a), (1774, 0x9784), (1775, 0x682a), (1776, 0x515c),
  (1777, 0x7ac3), (1778, 0x84b2), (1779, 0x91dc), (1780, 0x938c), (1781, 0x565b),
  (1782, 0x9d28), (1783, 0x6822), (1784, 0x8305), (1785, 0x8431), (1786, 0x7ca5),
  (1787, 0x5208), (1788, 0x82c5), (1789, 0x74e6), (1790, 0x4e7e), (1791, 0x4f83),
  (1792, 0x51a0), (1793, 0x5bd2), (1794, 0x520a), (1795, 0x52d8), (1796, 0x52e7),
  (1797, 0x5dfb), (1798, 0x559a), (1799, 0x582a), (1800, 0x59e6), (1801, 0x5b8c),
  (1802, 0x5b98), (1803, 0x5bdb), (1804, 0x5e72), (1805, 0x5e79), (1806, 0x60a3),
  (1807, 0x611f), (1808, 0x6163), (1809, 0x61be), (1810, 0x63db), (1811, 0x6562),
  (1812, 0x67d1), (1813, 0x6853), (1814, 0x68fa), (1815, 0x6b3e), (1816, 0x6b53),
  (1817, 0x6c57), (1818, 0x6f22), (1819, 0x6f97), (1820, 0x6f45), (1821, 0x74b0),
  (1822, 0x7518), (1823, 0x76e3), (1824, 0x770b), (1825, 0x7aff), (1826, 0x7ba1),
  (1827, 0x7c21), (1828, 0x7de9), (1829, 0x7f36), (1830, 0x7ff0), (1831, 0x809d),
  (1832, 0x8266), (1833, 0x839e), (1834, 0x89b3), (1835, 0x8acc), (1836, 0x8cab),
  (1837, 0x9084), (1838, 0x9451), (1839, 0x9593), (1840, 0x9591), (1841, 0x95a2),
  (1842, 0x9665), (1843, 0x97d3), (1844, 0x9928), (1845, 0x8218), (1846, 0x4e38),
  (1847, 0x542b), (1848, 0x5cb8), (1849, 0x5dcc), (1850, 0x73a9), (1851, 0x764c),
  (1852, 0x773c), (1853, 0x5ca9), (1854, 0x7feb), (1855, 0x8d0b), (1856, 0x96c1),
  (1857, 0x9811), (1858, 0x9854), (1859, 0x9858), (1860, 0x4f01), (1861, 0x4f0e),
  (1862, 0x5371), (1863, 0x559c), (1864, 0x5668), (1865, 0x57fa), (1866, 0x5947),
  (1867, 0x5b09), (1868, 0x5bc4), (1869, 0x5c90), (1870, 0x5e0c), (1871, 0x5e7e),
  (1872, 0x5fcc), (1873, 0x63ee), (1874, 0x673a), (1875, 0x65d7), (1876, 0x65e2),
  (1877, 0x671f), (1878, 0x68cb), (1879, 0x68c4)]

/-- Lines (pointer, code point) with pointer in [1880, 2068).  encoding_tables/whatwg/index-jis0208.txt:1084-1271 -/
def row10 : List (Nat × Nat) := [
  (1880, 0x6a5f), (1881, 0x5e30), (1882, 0x6bc5), (1883, 0x6c17), (1884, 0x6c7d),
  (1885, 0x757f), (1886, 0x7948), (1887, 0x5b63), (1888, 0x7a00), (1889, 0x7d00),
  (1890, 0x5fbd), (1891, 0x898f), (1892, 0x8a18), (1893, 0x8cb4), (1894, 0x8d77),
  (1895, 0x8ecc), (1896, 0x8f1d), (1897, 0x98e2), (1898, 0x9a0e), (1899, 0x9b3c),
  (1900, 0x4e80), (1901, 0x507d), (1902, 0x5100), (1903, 0x5993), (1904, 0x5b9c),
  (1905, 0x622f), (1906, 0x6280), (1907, 0x64ec), (1908, 0x6b3a), (1909, 0x72a0),
  (1910, 0x7591), (1911, 0x7947), (1912, 0x7fa9), (1913, 0x87fb), (1914, 0x8abc),
  (1915, 0x8b70), (1916, 0x63ac), (1917, 0x83ca), (1918, 0x97a0), (1919, 0x5409),
  (1920, 0x5403), (1921, 0x55ab), (1922, 0x6854), (1923, 0x6a58), (1924, 0x8a70),
  (1925, 0x7827), (1926, 0x6775), (1927, 0x9ecd), (1928, 0x5374), (1929, 0x5ba2),
  (1930, 0x811a), (1931, 0x8650), (1932, 0x9006), (1933, 0x4e18), (1934, 0x4e45),
  (1935, 0x4ec7), (1936, 0x4f11), (1937, 0x53ca), (1938, 0x5438), (1939, 0x5bae),
  (1940, 0x5f13), (1941, 0x6025), (1942, 0x6551), (1943, 0x673d), (1944, 0x6c42),
  (1945, 0x6c72), (1946, 0x6ce3), (1947, 0x7078), (1948, 0x7403), (1949, 0x7a76),
  (1950, 0x7aae), (1951, 0x7b08), (1952, 0x7d1a), (1953, 0x7cfe), (1954, 0x7d66),
  (1955, 0x65e7), (1956, 0x725b), (1957, 0x53bb), (1958, 0x5c45), (1959, 0x5de8),
  (1960, 0x62d2), (1961, 0x62e0), (1962, 0x6319), (1963, 0x6e20), (1964, 0x865a),
  (1965, 0x8a31), (1966, 0x8ddd), (1967, 0x92f8), (1968, 0x6f01), (1969, 0x79a6),
  (1970, 0x9b5a), (1971, 0x4ea8), (1972, 0x4eab), (1973, 0x4eac), (1974, 0x4f9b),
  (1975, 0x4fa0), (1976, 0x50d1), (1977, 0x5147), (1978, 0x7af6), (1979, 0x5171),
  (1980, 0x51f6), (1981, 0x5354), (1982, 0x5321), (1983, 0x537f), (1984, 0x53eb),
  (1985, 0x55ac), (1986, 0x5883), (1987, 0x5ce1), (1988, 0x5f37), (1989, 0x5f4a),
  (1990, 0x602f), (1991, 0x6050), (1992, 0x606d), (1993, 0x631f), (1994, 0x6559),
  (1995, 0x6a4b), (1996, 0x6cc1), (1997, 0x72c2), (1998, 0x72ed), (1999, 0x77ef),
  (2000, 0x80f8), (2001, 0x8105), (2002, 0x8208), (2003, 0x854e), (2004, 0x90f7),
  (2005, 0x93e1), (2006, 0x97ff), (2007, 0x9957), (2008, 0x9a5a), (2009, 0x4ef0),
  (2010, 0x51dd), (2011, 0x5c2d), (2012, 0x6681), (2013, 0x696d), (2014, 0x5c40),
  (2015, 0x66f2), (2016, 0x6975), (2017, 0x7389), (2018, 0x6850), (2019, 0x7c81),
  (2020, 0x50c5), (2021, 0x52e4), (2022, 0x5747), (2023, 0x5dfe), (2024, 0x9326),
  (2025, 0x65a4), (2026, 0x6b23), (2027, 0x6b3d), (2028, 0x7434), (2029, 0x7981),
  (2030, 0x79bd), (2031, 0x7b4b), (2032, 0x7dca), (2033, 0x82b9), (2034, 0x83cc),
  (2035, 0x887f), (2036, 0x895f), (2037, 0x8b39), (2038, 0x8fd1), (2039, 0x91d1),
  (2040, 0x541f), (2041, 0x9280), (2042, 0x4e5d), (2043, 0x5036), (2044, 0x53e5),
  (2045, 0x533a), (2046, 0x72d7), (2047, 0x7396), (2048, 0x77e9), (2049, 0x82e6),
  (2050, 0x8eaf), (2051, 0x99c6), (2052, 0x99c8), (2053, 0x99d2), (2054, 0x5177),
  (2055, 0x611a), (2056, 0x865e), (2057, 0x55b0), (2058, 0x7a7a), (2059, 0x5076),
  (2060, 0x5bd3), (2061, 0x9047), (2062, 0x9685), (2063, 0x4e32), (2064, 0x6adb),
  (2065, 0x91e7), (2066, 0x5c51), (2067, 0x5c48)]

/-- Lines (pointer, code point) with pointer in [2068, 2256).  encoding_tables/whatwg/index-jis0208.txt:1272-1459 -/
def row11 : List (Nat × Nat) := [
  (2068, 0x6398), (2069, 0x7a9f), (2070, 0x6c93), (2071, 0x9774), (2072, 0x8f61),
  (2073, 0x7aaa), (2074, 0x718a), (2075, 0x9688), (2076, 0x7c82), (2077, 0x6817),
  (2078, 0x7e70), (2079, 0x6851), (2080, 0x936c), (2081, 0x52f2), (2082, 0x541b),
  (2083, 0x85ab), (2084, 0x8a13), (2085, 0x7fa4), (2086, 0x8ecd), (2087, 0x90e1),
  (2088, 0x5366), (2089, 0x8888), (2090, 0x7941), (2091, 0x4fc2), (2092, 0x50be),
  (2093, 0x5211), (2094, 0x5144), (2095, 0x5553), (2096, 0x572d), (2097, 0x73ea),
  (2098, 0x578b), (2099, 0x5951), (2100, 0x5f62), (2101, 0x5f84), (2102, 0x6075),
  (2103, 0x6176), (2104, 0x6167), (2105, 0x61a9), (2106, 0x63b2), (2107, 0x643a),
  (2108, 0x656c), (2109, 0x666f), (2110, 0x6842), (2111, 0x6e13), (2112, 0x7566),
  (2113, 0x7a3d), (2114, 0x7cfb), (2115, 0x7d4c), (2116, 0x7d99), (2117, 0x7e4b),
  (2118, 0x7f6b), (2119, 0x830e), (2120, 0x834a), (2121, 0x86cd), (2122, 0x8a08),
  (2123, 0x8a63), (2124, 0x8b66), (2125, 0x8efd), (2126, 0x981a), (2127, 0x9d8f),
  (2128, 0x82b8), (2129, 0x8fce), (2130, 0x9be8), (2131, 0x5287), (2132, 0x621f),
  (2133, 0x6483), (2134, 0x6fc0), (2135, 0x9699), (2136, 0x6841), (2137, 0x5091),
  (2138, 0x6b20), (2139, 0x6c7a), (2140, 0x6f54), (2141, 0x7a74), (2142, 0x7d50),
  (2143, 0x8840), (2144, 0x8a23), (2145, 0x6708), (2146, 0x4ef6), (2147, 0x5039),
  (2148, 0x5026), (2149, 0x5065), (2150, 0x517c), (2151, 0x5238), (2152, 0x5263),
  (2153, 0x55a7), (2154, 0x570f), (2155, 0x5805), (2156, 0x5acc), (2157, 0x5efa),
  (2158, 0x61b2), (2159, 0x61f8), (2160, 0x62f3), (2161, 0x6372), (2162, 0x691c),
  (2163, 0x6a29), (2164, 0x727d), (2165, 0x72ac), (2166, 0x732e), (2167, 0x7814),
  (2168, 0x786f), (2169, 0x7d79), (2170, 0x770c), (2171, 0x80a9), (2172, 0x898b),
  (2173, 0x8b19), (2174, 0x8ce2), (2175, 0x8ed2), (2176, 0x9063), (2177, 0x9375),
  (2178, 0x967a), (2179, 0x9855), (2180, 0x9a13), (2181, 0x9e78), (2182, 0x5143),
  (2183, 0x539f), (2184, 0x53b3), (2185, 0x5e7b), (2186, 0x5f26), (2187, 0x6e1b),
  (2188, 0x6e90), (2189, 0x7384), (2190, 0x73fe), (2191, 0x7d43), (2192, 0x8237),
  (2193, 0x8a00), (2194, 0x8afa), (2195, 0x9650), (2196, 0x4e4e), (2197, 0x500b),
  (2198, 0x53e4), (2199, 0x547c), (2200, 0x56fa), (2201, 0x59d1), (2202, 0x5b64),
  (2203, 0x5df1), (2204, 0x5eab), (2205, 0x5f27), (2206, 0x6238), (2207, 0x6545),
  (2208, 0x67af), (2209, 0x6e56), (2210, 0x72d0), (2211, 0x7cca), (2212, 0x88b4),
  (2213, 0x80a1), (2214, 0x80e1), (2215, 0x83f0), (2216, 0x864e), (2217, 0x8a87),
  (2218, 0x8de8), (2219, 0x9237), (2220, 0x96c7), (2221, 0x9867), (2222, 0x9f13),
  (2223, 0x4e94), (2224, 0x4e92), (2225, 0x4f0d), (2226, 0x5348), (2227, 0x5449),
  (2228, 0x543e), (2229, 0x5a2f), (2230, 0x5f8c), (2231, 0x5fa1), (2232, 0x609f),
  (2233, 0x68a7), (2234, 0x6a8e), (2235, 0x745a), (2236, 0x7881), (2237, 0x8a9e),
  (2238, 0x8aa4), (2239, 0x8b77), (2240, 0x9190), (2241, 0x4e5e), (2242, 0x9bc9),
  (2243, 0x4ea4), (2244, 0x4f7c), (2245, 0x4faf), (2246, 0x5019), (2247, 0x5016),
  (2248, 0x5149), (2249, 0x516c), (2250, 0x529f), (2251, 0x52b9), (2252, 0x52fe),
  (2253, 0x539a), (2254, 0x53e3), (2255, 0x5411)]

/-- Lines (pointer, code point) with pointer in [2256, 2444).  encoding_tables/whatwg/index-jis0208.txt:1460-1647 -/
def row12 : List (Nat × Nat) := [
  (2256, 0x540e), (2257, 0x5589), (2258, 0x5751), (2259, 0x57a2), (2260, 0x597d),
  (2261, 0x5b54), (2262, 0x5b5d), (2263, 0x5b8f), (2264, 0x5de5), (2265, 0x5de7),
  (2266, 0x5df7), (2267, 0x5e78), (2268, 0x5e83), (2269, 0x5e9a), (2270, 0x5eb7),
  (2271, 0x5f18), (2272, 0x6052), (2273, 0x614c), (2274, 0x6297), (2275, 0x62d8),
  (2276, 0x63a7), (2277, 0x653b), (2278, 0x6602), (2279, 0x6643), (2280, 0x66f4),
  (2281, 0x676d), (2282, 0x6821), (2283, 0x6897), (2284, 0x69cb), (2285, 0x6c5f),
  (2286, 0x6d2a), (2287, 0x6d69), (2288, 0x6e2f), (2289, 0x6e9d), (2290, 0x7532),
  (2291, 0x7687), (2292, 0x786c), (2293, 0x7a3f), (2294, 0x7ce0), (2295, 0x7d05),
  (2296, 0x7d18), (2297, 0x7d5e), (2298, 0x7db1), (2299, 0x8015), (2300, 0x8003),
  (2301, 0x80af), (2302, 0x80b1), (2303, 0x8154), (2304, 0x818f), (2305, 0x822a),
  (2306, 0x8352), (2307, 0x884c), (2308, 0x8861), (2309, 0x8b1b), (2310, 0x8ca2),
  (2311, 0x8cfc), (2312, 0x90ca), (2313, 0x9175), (2314, 0x9271), (2315, 0x783f),
  (2316, 0x92fc), (2317, 0x95a4), (2318, 0x964d), (2319, 0x9805), (2320, 0x9999),
  (2321, 0x9ad8), (2322, 0x9d3b), (2323, 0x525b), (2324, 0x52ab), (2325, 0x53f7),
  (2326, 0x5408), (2327, 0x58d5), (2328, 0x62f7), (2329, 0x6fe0), (2330, 0x8c6a),
  (2331, 0x8f5f), (2332, 0x9eb9), (2333, 0x514b), (2334, 0x523b), (2335, 0x544a),
  (2336, 0x56fd), (2337, 0x7a40), (2338, 0x9177), (2339, 0x9d60), (2340, 0x9ed2),
  (2341, 0x7344), (2342, 0x6f09), (2343, 0x8170), (2344, 0x7511), (2345, 0x5ffd),
  (2346, 0x60da), (2347, 0x9aa8), (2348, 0x72db), (2349, 0x8fbc), (2350, 0x6b64),
  (2351, 0x9803), (2352, 0x4eca), (2353, 0x56f0), (2354, 0x5764), (2355, 0x58be),
  (2356, 0x5a5a), (2357, 0x6068), (2358, 0x61c7), (2359, 0x660f), (2360, 0x6606),
  (2361, 0x6839), (2362, 0x68b1), (2363, 0x6df7), (2364, 0x75d5), (2365, 0x7d3a),
  (2366, 0x826e), (2367, 0x9b42), (2368, 0x4e9b), (2369, 0x4f50), (2370, 0x53c9),
  (2371, 0x5506), (2372, 0x5d6f), (2373, 0x5de6), (2374, 0x5dee), (2375, 0x67fb),
  (2376, 0x6c99), (2377, 0x7473), (2378, 0x7802), (2379, 0x8a50), (2380, 0x9396),
  (2381, 0x88df), (2382, 0x5750), (2383, 0x5ea7), (2384, 0x632b), (2385, 0x50b5),
  (2386, 0x50ac), (2387, 0x518d), (2388, 0x6700), (2389, 0x54c9), (2390, 0x585e),
  (2391, 0x59bb), (2392, 0x5bb0), (2393, 0x5f69), (2394, 0x624d), (2395, 0x63a1),
  (2396, 0x683d), (2397, 0x6b73), (2398, 0x6e08), (2399, 0x707d), (2400, 0x91c7),
  (2401, 0x7280), (2402, 0x7815), (2403, 0x7826), (2404, 0x796d), (2405, 0x658e),
  (2406, 0x7d30), (2407, 0x83dc), (2408, 0x88c1), (2409, 0x8f09), (2410, 0x969b),
  (2411, 0x5264), (2412, 0x5728), (2413, 0x6750), (2414, 0x7f6a), (2415, 0x8ca1),
  (2416, 0x51b4), (2417, 0x5742), (2418, 0x962a), (2419, 0x583a), (2420, 0x698a),
  (2421, 0x80b4), (2422, 0x54b2), (2423, 0x5d0e), (2424, 0x57fc), (2425, 0x7895),
  (2426, 0x9dfa), (2427, 0x4f5c), (2428, 0x524a), (2429, 0x548b), (2430, 0x643e),
  (2431, 0x6628), (2432, 0x6714), (2433, 0x67f5), (2434, 0x7a84), (2435, 0x7b56),
  (2436, 0x7d22), (2437, 0x932f), (2438, 0x685c), (2439, 0x9bad), (2440, 0x7b39),
  (2441, 0x5319), (2442, 0x518a), (2443, 0x5237)]

/-- Lines (pointer, code point) with pointer in [2444, 2632).  encoding_tables/whatwg/index-jis0208.txt:1648-1835 -/
def row13 : List (Nat × Nat) := [
  (2444, 0x5bdf), (2445, 0x62f6), (2446, 0x64ae), (2447, 0x64e6), (2448, 0x672d),
  (2449, 0x6bba), (2450, 0x85a9), (2451, 0x96d1), (2452, 0x7690), (2453, 0x9bd6),
  (2454, 0x634c), (2455, 0x9306), (2456, 0x9bab), (2457, 0x76bf), (2458, 0x6652),
  (2459, 0x4e09), (2460, 0x5098), (2461, 0x53c2), (2462, 0x5c71), (2463, 0x60e8),
  (2464, 0x6492), (2465, 0x6563), (2466, 0x685f), (2467, 0x71e6), (2468, 0x73ca),
  (2469, 0x7523), (2470, 0x7b97), (2471, 0x7e82), (2472, 0x8695), (2473, 0x8b83),
  (2474, 0x8cdb), (2475, 0x9178), (2476, 0x9910), (2477, 0x65ac), (2478, 0x66ab),
  (2479, 0x6b8b), (2480, 0x4ed5), (2481, 0x4ed4), (2482, 0x4f3a), (2483, 0x4f7f),
  (2484, 0x523a), (2485, 0x53f8), (2486, 0x53f2), (2487, 0x55e3), (2488, 0x56db),
  (2489, 0x58eb), (2490, 0x59cb), (2491, 0x59c9), (2492, 0x59ff), (2493, 0x5b50),
  (2494, 0x5c4d), (2495, 0x5e02), (2496, 0x5e2b), (2497, 0x5fd7), (2498, 0x601d),
  (2499, 0x6307), (2500, 0x652f), (2501, 0x5b5c), (2502, 0x65af), (2503, 0x65bd),
  (2504, 0x65e8), (2505, 0x679d), (2506, 0x6b62), (2507, 0x6b7b), (2508, 0x6c0f),
  (2509, 0x7345), (2510, 0x7949), (2511, 0x79c1), (2512, 0x7cf8), (2513, 0x7d19),
  (2514, 0x7d2b), (2515, 0x80a2), (2516, 0x8102), (2517, 0x81f3), (2518, 0x8996),
  (2519, 0x8a5e), (2520, 0x8a69), (2521, 0x8a66), (2522, 0x8a8c), (2523, 0x8aee),
  (2524, 0x8cc7), (2525, 0x8cdc), (2526, 0x96cc), (2527, 0x98fc), (2528, 0x6b6f),
  (2529, 0x4e8b), (2530, 0x4f3c), (2531, 0x4f8d), (2532, 0x5150), (2533, 0x5b57),
  (2534, 0x5bfa), (2535, 0x6148), (2536, 0x6301), (2537, 0x6642), (2538, 0x6b21),
  (2539, 0x6ecb), (2540, 0x6cbb), (2541, 0x723e), (2542, 0x74bd), (2543, 0x75d4),
  (2544, 0x78c1), (2545, 0x793a), (2546, 0x800c), (2547, 0x8033), (2548, 0x81ea),
  (2549, 0x8494), (2550, 0x8f9e), (2551, 0x6c50), (2552, 0x9e7f), (2553, 0x5f0f),
  (2554, 0x8b58), (2555, 0x9d2b), (2556, 0x7afa), (2557, 0x8ef8), (2558, 0x5b8d),
  (2559, 0x96eb), (2560, 0x4e03), (2561, 0x53f1), (2562, 0x57f7), (2563, 0x5931),
  (2564, 0x5ac9), (2565, 0x5ba4), (2566, 0x6089), (2567, 0x6e7f), (2568, 0x6f06),
  (2569, 0x75be), (2570, 0x8cea), (2571, 0x5b9f), (2572, 0x8500), (2573, 0x7be0),
  (2574, 0x5072), (2575, 0x67f4), (2576, 0x829d), (2577, 0x5c61), (2578, 0x854a),
  (2579, 0x7e1e), (2580, 0x820e), (2581, 0x5199), (2582, 0x5c04), (2583, 0x6368),
  (2584, 0x8d66), (2585, 0x659c), (2586, 0x716e), (2587, 0x793e), (2588, 0x7d17),
  (2589, 0x8005), (2590, 0x8b1d), (2591, 0x8eca), (2592, 0x906e), (2593, 0x86c7),
  (2594, 0x90aa), (2595, 0x501f), (2596, 0x52fa), (2597, 0x5c3a), (2598, 0x6753),
  (2599, 0x707c), (2600, 0x7235), (2601, 0x914c), (2602, 0x91c8), (2603, 0x932b),
  (2604, 0x82e5), (2605, 0x5bc2), (2606, 0x5f31), (2607, 0x60f9), (2608, 0x4e3b),
  (2609, 0x53d6), (2610, 0x5b88), (2611, 0x624b), (2612, 0x6731), (2613, 0x6b8a),
  (2614, 0x72e9), (2615, 0x73e0), (2616, 0x7a2e), (2617, 0x816b), (2618, 0x8da3),
  (2619, 0x9152), (2620, 0x9996), (2621, 0x5112), (2622, 0x53d7), (2623, 0x546a),
  (2624, 0x5bff), (2625, 0x6388), (2626, 0x6a39), (2627, 0x7dac), (2628, 0x9700),
  (2629, 0x56da), (2630, 0x53ce), (2631, 0x5468)]

/-- Lines (pointer, code point) with pointer in [2632, 2820).  encoding_tables/whatwg/index-jis0208.txt:1836-2023 -/
def row14 : List (Nat × Nat) := [
  (2632, 0x5b97), (2633, 0x5c31), (2634, 0x5dde), (2635, 0x4fee), (2636, 0x6101),
  (2637, 0x62fe), (2638, 0x6d32), (2639, 0x79c0), (2640, 0x79cb), (2641, 0x7d42),
  (2642, 0x7e4d), (2643, 0x7fd2), (2644, 0x81ed), (2645, 0x821f), (2646, 0x8490),
  (2647, 0x8846), (2648, 0x8972), (2649, 0x8b90), (2650, 0x8e74), (2651, 0x8f2f),
  (2652, 0x9031), (2653, 0x914b), (2654, 0x916c), (2655, 0x96c6), (2656, 0x919c),
  (2657, 0x4ec0), (2658, 0x4f4f), (2659, 0x5145), (2660, 0x5341), (2661, 0x5f93),
  (2662, 0x620e), (2663, 0x67d4), (2664, 0x6c41), (2665, 0x6e0b), (2666, 0x7363),
  (2667, 0x7e26), (2668, 0x91cd), (2669, 0x9283), (2670, 0x53d4), (2671, 0x5919),
  (2672, 0x5bbf), (2673, 0x6dd1), (2674, 0x795d), (2675, 0x7e2e), (2676, 0x7c9b),
  (2677, 0x587e), (2678, 0x719f), (2679, 0x51fa), (2680, 0x8853), (2681, 0x8ff0),
  (2682, 0x4fca), (2683, 0x5cfb), (2684, 0x6625), (2685, 0x77ac), (2686, 0x7ae3),
  (2687, 0x821c), (2688, 0x99ff), (2689, 0x51c6), (2690, 0x5faa), (2691, 0x65ec),
  (2692, 0x696f), (2693, 0x6b89), (2694, 0x6df3), (2695, 0x6e96), (2696, 0x6f64),
  (2697, 0x76fe), (2698, 0x7d14), (2699, 0x5de1), (2700, 0x9075), (2701, 0x9187),
  (2702, 0x9806), (2703, 0x51e6), (2704, 0x521d), (2705, 0x6240), (2706, 0x6691),
  (2707, 0x66d9), (2708, 0x6e1a), (2709, 0x5eb6), (2710, 0x7dd2), (2711, 0x7f72),
  (2712, 0x66f8), (2713, 0x85af), (2714, 0x85f7), (2715, 0x8af8), (2716, 0x52a9),
  (2717, 0x53d9), (2718, 0x5973), (2719, 0x5e8f), (2720, 0x5f90), (2721, 0x6055),
  (2722, 0x92e4), (2723, 0x9664), (2724, 0x50b7), (2725, 0x511f), (2726, 0x52dd),
  (2727, 0x5320), (2728, 0x5347), (2729, 0x53ec), (2730, 0x54e8), (2731, 0x5546),
  (2732, 0x5531), (2733, 0x5617), (2734, 0x5968), (2735, 0x59be), (2736, 0x5a3c),
  (2737, 0x5bb5), (2738, 0x5c06), (2739, 0x5c0f), (2740, 0x5c11), (2741, 0x5c1a),
  (2742, 0x5e84), (2743, 0x5e8a), (2744, 0x5ee0), (2745, 0x5f70), (2746, 0x627f),
  (2747, 0x6284), (2748, 0x62db), (2749, 0x638c), (2750, 0x6377), (2751, 0x6607),
  (2752, 0x660c), (2753, 0x662d), (2754, 0x6676), (2755, 0x677e), (2756, 0x68a2),
  (2757, 0x6a1f), (2758, 0x6a35), (2759, 0x6cbc), (2760, 0x6d88), (2761, 0x6e09),
  (2762, 0x6e58), (2763, 0x713c), (2764, 0x7126), (2765, 0x7167), (2766, 0x75c7),
  (2767, 0x7701), (2768, 0x785d), (2769, 0x7901), (2770, 0x7965), (2771, 0x79f0),
  (2772, 0x7ae0), (2773, 0x7b11), (2774, 0x7ca7), (2775, 0x7d39), (2776, 0x8096),
  (2777, 0x83d6), (2778, 0x848b), (2779, 0x8549), (2780, 0x885d), (2781, 0x88f3),
  (2782, 0x8a1f), (2783, 0x8a3c), (2784, 0x8a54), (2785, 0x8a73), (2786, 0x8c61),
  (2787, 0x8cde), (2788, 0x91a4), (2789, 0x9266), (2790, 0x937e), (2791, 0x9418),
  (2792, 0x969c), (2793, 0x9798), (2794, 0x4e0a), (2795, 0x4e08), (2796, 0x4e1e),
  (2797, 0x4e57), (2798, 0x5197), (2799, 0x5270), (2800, 0x57ce), (2801, 0x5834),
  (2802, 0x58cc), (2803, 0x5b22), (2804, 0x5e38), (2805, 0x60c5), (2806, 0x64fe),
  (2807, 0x6761), (2808, 0x6756), (2809, 0x6d44), (2810, 0x72b6), (2811, 0x7573),
  (2812, 0x7a63), (2813, 0x84b8), (2814, 0x8b72), (2815, 0x91b8), (2816, 0x9320),
  (2817, 0x5631), (2818, 0x57f4), (2819, 0x98fe)]

/-- Lines (pointer, code point) with pointer in [2820, 3008).  encoding_tables/whatwg/index-jis0208.txt:2024-2211 -/
def row15 : List (Nat × Nat) := [
  (2820, 0x62ed), (2821, 0x690d), (2822, 0x6b96), (2823, 0x71ed), (2824, 0x7e54),
  (2825, 0x8077), (2826, 0x8272), (2827, 0x89e6), (2828, 0x98df), (2829, 0x8755),
  (2830, 0x8fb1), (2831, 0x5c3b), (2832, 0x4f38), (2833, 0x4fe1), (2834, 0x4fb5),
  (2835, 0x5507), (2836, 0x5a20), (2837, 0x5bdd), (2838, 0x5be9), (2839, 0x5fc3),
  (2840, 0x614e), (2841, 0x632f), (2842, 0x65b0), (2843, 0x664b), (2844, 0x68ee),
  (2845, 0x699b), (2846, 0x6d78), (2847, 0x6df1), (2848, 0x7533), (2849, 0x75b9),
  (2850, 0x771f), (2851, 0x795e), (2852, 0x79e6), (2853, 0x7d33), (2854, 0x81e3),
  (2855, 0x82af), (2856, 0x85aa), (2857, 0x89aa), (2858, 0x8a3a), (2859, 0x8eab),
  (2860, 0x8f9b), (2861, 0x9032), (2862, 0x91dd), (2863, 0x9707), (2864, 0x4eba),
  (2865, 0x4ec1), (2866, 0x5203), (2867, 0x5875), (2868, 0x58ec), (2869, 0x5c0b),
  (2870, 0x751a), (2871, 0x5c3d), (2872, 0x814e), (2873, 0x8a0a), (2874, 0x8fc5),
  (2875, 0x9663), (2876, 0x976d), (2877, 0x7b25), (2878, 0x8acf), (2879, 0x9808),
  (2880, 0x9162), (2881, 0x56f3), (2882, 0x53a8), (2883, 0x9017), (2884, 0x5439),
  (2885, 0x5782), (2886, 0x5e25), (2887, 0x63a8), (2888, 0x6c34), (2889, 0x708a),
  (2890, 0x7761), (2891, 0x7c8b), (2892, 0x7fe0), (2893, 0x8870), (2894, 0x9042),
  (2895, 0x9154), (2896, 0x9310), (2897, 0x9318), (2898, 0x968f), (2899, 0x745e),
  (2900, 0x9ac4), (2901, 0x5d07), (2902, 0x5d69), (2903, 0x6570), (2904, 0x67a2),
  (2905, 0x8da8), (2906, 0x96db), (2907, 0x636e), (2908, 0x6749), (2909, 0x6919),
  (2910, 0x83c5), (2911, 0x9817), (2912, 0x96c0), (2913, 0x88fe), (2914, 0x6f84),
  (2915, 0x647a), (2916, 0x5bf8), (2917, 0x4e16), (2918, 0x702c), (2919, 0x755d),
  (2920, 0x662f), (2921, 0x51c4), (2922, 0x5236), (2923, 0x52e2), (2924, 0x59d3),
  (2925, 0x5f81), (2926, 0x6027), (2927, 0x6210), (2928, 0x653f), (2929, 0x6574),
  (2930, 0x661f), (2931, 0x6674), (2932, 0x68f2), (2933, 0x6816), (2934, 0x6b63),
  (2935, 0x6e05), (2936, 0x7272), (2937, 0x751f), (2938, 0x76db), (2939, 0x7cbe),
  (2940, 0x8056), (2941, 0x58f0), (2942, 0x88fd), (2943, 0x897f), (2944, 0x8aa0),
  (2945, 0x8a93), (2946, 0x8acb), (2947, 0x901d), (2948, 0x9192), (2949, 0x9752),
  (2950, 0x9759), (2951, 0x6589), (2952, 0x7a0e), (2953, 0x8106), (2954, 0x96bb),
  (2955, 0x5e2d), (2956, 0x60dc), (2957, 0x621a), (2958, 0x65a5), (2959, 0x6614),
  (2960, 0x6790), (2961, 0x77f3), (2962, 0x7a4d), (2963, 0x7c4d), (2964, 0x7e3e),
  (2965, 0x810a), (2966, 0x8cac), (2967, 0x8d64), (2968, 0x8de1), (2969, 0x8e5f),
  (2970, 0x78a9), (2971, 0x5207), (2972, 0x62d9), (2973, 0x63a5), (2974, 0x6442),
  (2975, 0x6298), (2976, 0x8a2d), (2977, 0x7a83), (2978, 0x7bc0), (2979, 0x8aac),
  (2980, 0x96ea), (2981, 0x7d76), (2982, 0x820c), (2983, 0x8749), (2984, 0x4ed9),
  (2985, 0x5148), (2986, 0x5343), (2987, 0x5360), (2988, 0x5ba3), (2989, 0x5c02),
  (2990, 0x5c16), (2991, 0x5ddd), (2992, 0x6226), (2993, 0x6247), (2994, 0x64b0),
  (2995, 0x6813), (2996, 0x6834), (2997, 0x6cc9), (2998, 0x6d45), (2999, 0x6d17),
  (3000, 0x67d3), (3001, 0x6f5c), (3002, 0x714e), (3003, 0x717d), (3004, 0x65cb),
  (3005, 0x7a7f), (3006, 0x7bad), (3007, 0x7dda)]

/-- Lines (pointer, code point) with pointer in [3008, 3196).  encoding_tables/whatwg/index-jis0208.txt:2212-2399 -/
def row16 : List (Nat × Nat) := [
  (3008, 0x7e4a), (3009, 0x7fa8), (3010, 0x817a), (3011, 0x821b), (3012, 0x8239),
  (3013, 0x85a6), (3014, 0x8a6e), (3015, 0x8cce), (3016, 0x8df5), (3017, 0x9078),
  (3018, 0x9077), (3019, 0x92ad), (3020, 0x9291), (3021, 0x9583), (3022, 0x9bae),
  (3023, 0x524d), (3024, 0x5584), (3025, 0x6f38), (3026, 0x7136), (3027, 0x5168),
  (3028, 0x7985), (3029, 0x7e55), (3030, 0x81b3), (3031, 0x7cce), (3032, 0x564c),
  (3033, 0x5851), (3034, 0x5ca8), (3035, 0x63aa), (3036, 0x66fe), (3037, 0x66fd),
  (3038, 0x695a), (3039, 0x72d9), (3040, 0x758f), (3041, 0x758e), (3042, 0x790e),
  (3043, 0x7956), (3044, 0x79df), (3045, 0x7c97), (3046, 0x7d20), (3047, 0x7d44),
  (3048, 0x8607), (3049, 0x8a34), (3050, 0x963b), (3051, 0x9061), (3052, 0x9f20),
  (3053, 0x50e7), (3054, 0x5275), (3055, 0x53cc), (3056, 0x53e2), (3057, 0x5009),
  (3058, 0x55aa), (3059, 0x58ee), (3060, 0x594f), (3061, 0x723d), (3062, 0x5b8b),
  (3063, 0x5c64), (3064, 0x531d), (3065, 0x60e3), (3066, 0x60f3), (3067, 0x635c),
  (3068, 0x6383), (3069, 0x633f), (3070, 0x63bb), (3071, 0x64cd), (3072, 0x65e9),
  (3073, 0x66f9), (3074, 0x5de3), (3075, 0x69cd), (3076, 0x69fd), (3077, 0x6f15),
  (3078, 0x71e5), (3079, 0x4e89), (3080, 0x75e9), (3081, 0x76f8), (3082, 0x7a93),
  (3083, 0x7cdf), (3084, 0x7dcf), (3085, 0x7d9c), (3086, 0x8061), (3087, 0x8349),
  (3088, 0x8358), (3089, 0x846c), (3090, 0x84bc), (3091, 0x85fb), (3092, 0x88c5),
  (3093, 0x8d70), (3094, 0x9001), (3095, 0x906d), (3096, 0x9397), (3097, 0x971c),
  (3098, 0x9a12), (3099, 0x50cf), (3100, 0x5897), (3101, 0x618e), (3102, 0x81d3),
  (3103, 0x8535), (3104, 0x8d08), (3105, 0x9020), (3106, 0x4fc3), (3107, 0x5074),
  (3108, 0x5247), (3109, 0x5373), (3110, 0x606f), (3111, 0x6349), (3112, 0x675f),
  (3113, 0x6e2c), (3114, 0x8db3), (3115, 0x901f), (3116, 0x4fd7), (3117, 0x5c5e),
  (3118, 0x8cca), (3119, 0x65cf), (3120, 0x7d9a), (3121, 0x5352), (3122, 0x8896),
  (3123, 0x5176), (3124, 0x63c3), (3125, 0x5b58), (3126, 0x5b6b), (3127, 0x5c0a),
  (3128, 0x640d), (3129, 0x6751), (3130, 0x905c), (3131, 0x4ed6), (3132, 0x591a),
  (3133, 0x592a), (3134, 0x6c70), (3135, 0x8a51), (3136, 0x553e), (3137, 0x5815),
  (3138, 0x59a5), (3139, 0x60f0), (3140, 0x6253), (3141, 0x67c1), (3142, 0x8235),
  (3143, 0x6955), (3144, 0x9640), (3145, 0x99c4), (3146, 0x9a28), (3147, 0x4f53),
  (3148, 0x5806), (3149, 0x5bfe), (3150, 0x8010), (3151, 0x5cb1), (3152, 0x5e2f),
  (3153, 0x5f85), (3154, 0x6020), (3155, 0x614b), (3156, 0x6234), (3157, 0x66ff),
  (3158, 0x6cf0), (3159, 0x6ede), (3160, 0x80ce), (3161, 0x817f), (3162, 0x82d4),
  (3163, 0x888b), (3164, 0x8cb8), (3165, 0x9000), (3166, 0x902e), (3167, 0x968a),
  (3168, 0x9edb), (3169, 0x9bdb), (3170, 0x4ee3), (3171, 0x53f0), (3172, 0x5927),
  (3173, 0x7b2c), (3174, 0x918d), (3175, 0x984c), (3176, 0x9df9), (3177, 0x6edd),
  (3178, 0x7027), (3179, 0x5353), (3180, 0x5544), (3181, 0x5b85), (3182, 0x6258),
  (3183, 0x629e), (3184, 0x62d3), (3185, 0x6ca2), (3186, 0x6fef), (3187, 0x7422),
  (3188, 0x8a17), (3189, 0x9438), (3190, 0x6fc1), (3191, 0x8afe), (3192, 0x8338),
  (3193, 0x51e7), (3194, 0x86f8), (3195, 0x53ea)]

/-- Lines (pointer, code point) with pointer in [3196, 3384).  encoding_tables/whatwg/index-jis0208.txt:2400-2587 -/
def row17 : List (Nat × Nat) := [
  (3196, 0x53e9), (3197, 0x4f46), (3198, 0x9054), (3199, 0x8fb0), (3200, 0x596a),
  (3201, 0x8131), (3202, 0x5dfd), (3203, 0x7aea), (3204, 0x8fbf), (3205, 0x68da),
  (3206, 0x8c37), (3207, 0x72f8), (3208, 0x9c48), (3209, 0x6a3d), (3210, 0x8ab0),
  (3211, 0x4e39), (3212, 0x5358), (3213, 0x5606), (3214, 0x5766), (3215, 0x62c5),
  (3216, 0x63a2), (3217, 0x65e6), (3218, 0x6b4e), (3219, 0x6de1), (3220, 0x6e5b),
  (3221, 0x70ad), (3222, 0x77ed), (3223, 0x7aef), (3224, 0x7baa), (3225, 0x7dbb),
  (3226, 0x803d), (3227, 0x80c6), (3228, 0x86cb), (3229, 0x8a95), (3230, 0x935b),
  (3231, 0x56e3), (3232, 0x58c7), (3233, 0x5f3e), (3234, 0x65ad), (3235, 0x6696),
  (3236, 0x6a80), (3237, 0x6bb5), (3238, 0x7537), (3239, 0x8ac7), (3240, 0x5024),
  (3241, 0x77e5), (3242, 0x5730), (3243, 0x5f1b), (3244, 0x6065), (3245, 0x667a),
  (3246, 0x6c60), (3247, 0x75f4), (3248, 0x7a1a), (3249, 0x7f6e), (3250, 0x81f4),
  (3251, 0x8718), (3252, 0x9045), (3253, 0x99b3), (3254, 0x7bc9), (3255, 0x755c),
  (3256, 0x7af9), (3257, 0x7b51), (3258, 0x84c4), (3259, 0x9010), (3260, 0x79e9),
  (3261, 0x7a92), (3262, 0x8336), (3263, 0x5ae1), (3264, 0x7740), (3265, 0x4e2d),
  (3266, 0x4ef2), (3267, 0x5b99), (3268, 0x5fe0), (3269, 0x62bd), (3270, 0x663c),
  (3271, 0x67f1), (3272, 0x6ce8), (3273, 0x866b), (3274, 0x8877), (3275, 0x8a3b),
  (3276, 0x914e), (3277, 0x92f3), (3278, 0x99d0), (3279, 0x6a17), (3280, 0x7026),
  (3281, 0x732a), (3282, 0x82e7), (3283, 0x8457), (3284, 0x8caf), (3285, 0x4e01),
  (3286, 0x5146), (3287, 0x51cb), (3288, 0x558b), (3289, 0x5bf5), (3290, 0x5e16),
  (3291, 0x5e33), (3292, 0x5e81), (3293, 0x5f14), (3294, 0x5f35), (3295, 0x5f6b),
  (3296, 0x5fb4), (3297, 0x61f2), (3298, 0x6311), (3299, 0x66a2), (3300, 0x671d),
  (3301, 0x6f6e), (3302, 0x7252), (3303, 0x753a), (3304, 0x773a), (3305, 0x8074),
  (3306, 0x8139), (3307, 0x8178), (3308, 0x8776), (3309, 0x8abf), (3310, 0x8adc),
  (3311, 0x8d85), (3312, 0x8df3), (3313, 0x929a), (3314, 0x9577), (3315, 0x9802),
  (3316, 0x9ce5), (3317, 0x52c5), (3318, 0x6357), (3319, 0x76f4), (3320, 0x6715),
  (3321, 0x6c88), (3322, 0x73cd), (3323, 0x8cc3), (3324, 0x93ae), (3325, 0x9673),
  (3326, 0x6d25), (3327, 0x589c), (3328, 0x690e), (3329, 0x69cc), (3330, 0x8ffd),
  (3331, 0x939a), (3332, 0x75db), (3333, 0x901a), (3334, 0x585a), (3335, 0x6802),
  (3336, 0x63b4), (3337, 0x69fb), (3338, 0x4f43), (3339, 0x6f2c), (3340, 0x67d8),
  (3341, 0x8fbb), (3342, 0x8526), (3343, 0x7db4), (3344, 0x9354), (3345, 0x693f),
  (3346, 0x6f70), (3347, 0x576a), (3348, 0x58f7), (3349, 0x5b2c), (3350, 0x7d2c),
  (3351, 0x722a), (3352, 0x540a), (3353, 0x91e3), (3354, 0x9db4), (3355, 0x4ead),
  (3356, 0x4f4e), (3357, 0x505c), (3358, 0x5075), (3359, 0x5243), (3360, 0x8c9e),
  (3361, 0x5448), (3362, 0x5824), (3363, 0x5b9a), (3364, 0x5e1d), (3365, 0x5e95),
  (3366, 0x5ead), (3367, 0x5ef7), (3368, 0x5f1f), (3369, 0x608c), (3370, 0x62b5),
  (3371, 0x633a), (3372, 0x63d0), (3373, 0x68af), (3374, 0x6c40), (3375, 0x7887),
  (3376, 0x798e), (3377, 0x7a0b), (3378, 0x7de0), (3379, 0x8247), (3380, 0x8a02),
  (3381, 0x8ae6), (3382, 0x8e44), (3383, 0x9013)]

/-- Lines (pointer, code point) with pointer in [3384, 3572).  encoding_tables/whatwg/index-jis0208.txt:2588-2775 -/
def row18 : List (Nat × Nat) := [
  (3384, 0x90b8), (3385, 0x912d), (3386, 0x91d8), (3387, 0x9f0e), (3388, 0x6ce5),
  (3389, 0x6458), (3390, 0x64e2), (3391, 0x6575), (3392, 0x6ef4), (3393, 0x7684),
  (3394, 0x7b1b), (3395, 0x9069), (3396, 0x93d1), (3397, 0x6eba), (3398, 0x54f2),
  (3399, 0x5fb9), (3400, 0x64a4), (3401, 0x8f4d), (3402, 0x8fed), (3403, 0x9244),
  (3404, 0x5178), (3405, 0x586b), (3406, 0x5929), (3407, 0x5c55), (3408, 0x5e97),
  (3409, 0x6dfb), (3410, 0x7e8f), (3411, 0x751c), (3412, 0x8cbc), (3413, 0x8ee2),
  (3414, 0x985b), (3415, 0x70b9), (3416, 0x4f1d), (3417, 0x6bbf), (3418, 0x6fb1),
  (3419, 0x7530), (3420, 0x96fb), (3421, 0x514e), (3422, 0x5410), (3423, 0x5835),
  (3424, 0x5857), (3425, 0x59ac), (3426, 0x5c60), (3427, 0x5f92), (3428, 0x6597),
  (3429, 0x675c), (3430, 0x6e21), (3431, 0x767b), (3432, 0x83df), (3433, 0x8ced),
  (3434, 0x9014), (3435, 0x90fd), (3436, 0x934d), (3437, 0x7825), (3438, 0x783a),
  (3439, 0x52aa), (3440, 0x5ea6), (3441, 0x571f), (3442, 0x5974), (3443, 0x6012),
  (3444, 0x5012), (3445, 0x515a), (3446, 0x51ac), (3447, 0x51cd), (3448, 0x5200),
  (3449, 0x5510), (3450, 0x5854), (3451, 0x5858), (3452, 0x5957), (3453, 0x5b95),
  (3454, 0x5cf6), (3455, 0x5d8b), (3456, 0x60bc), (3457, 0x6295), (3458, 0x642d),
  (3459, 0x6771), (3460, 0x6843), (3461, 0x68bc), (3462, 0x68df), (3463, 0x76d7),
  (3464, 0x6dd8), (3465, 0x6e6f), (3466, 0x6d9b), (3467, 0x706f), (3468, 0x71c8),
  (3469, 0x5f53), (3470, 0x75d8), (3471, 0x7977), (3472, 0x7b49), (3473, 0x7b54),
  (3474, 0x7b52), (3475, 0x7cd6), (3476, 0x7d71), (3477, 0x5230), (3478, 0x8463),
  (3479, 0x8569), (3480, 0x85e4), (3481, 0x8a0e), (3482, 0x8b04), (3483, 0x8c46),
  (3484, 0x8e0f), (3485, 0x9003), (3486, 0x900f), (3487, 0x9419), (3488, 0x9676),
  (3489, 0x982d), (3490, 0x9a30), (3491, 0x95d8), (3492, 0x50cd), (3493, 0x52d5),
  (3494, 0x540c), (3495, 0x5802), (3496, 0x5c0e), (3497, 0x61a7), (3498, 0x649e),
  (3499, 0x6d1e), (3500, 0x77b3), (3501, 0x7ae5), (3502, 0x80f4), (3503, 0x8404),
  (3504, 0x9053), (3505, 0x9285), (3506, 0x5ce0), (3507, 0x9d07), (3508, 0x533f),
  (3509, 0x5f97), (3510, 0x5fb3), (3511, 0x6d9c), (3512, 0x7279), (3513, 0x7763),
  (3514, 0x79bf), (3515, 0x7be4), (3516, 0x6bd2), (3517, 0x72ec), (3518, 0x8aad),
  (3519, 0x6803), (3520, 0x6a61), (3521, 0x51f8), (3522, 0x7a81), (3523, 0x6934),
  (3524, 0x5c4a), (3525, 0x9cf6), (3526, 0x82eb), (3527, 0x5bc5), (3528, 0x9149),
  (3529, 0x701e), (3530, 0x5678), (3531, 0x5c6f), (3532, 0x60c7), (3533, 0x6566),
  (3534, 0x6c8c), (3535, 0x8c5a), (3536, 0x9041), (3537, 0x9813), (3538, 0x5451),
  (3539, 0x66c7), (3540, 0x920d), (3541, 0x5948), (3542, 0x90a3), (3543, 0x5185),
  (3544, 0x4e4d), (3545, 0x51ea), (3546, 0x8599), (3547, 0x8b0e), (3548, 0x7058),
  (3549, 0x637a), (3550, 0x934b), (3551, 0x6962), (3552, 0x99b4), (3553, 0x7e04),
  (3554, 0x7577), (3555, 0x5357), (3556, 0x6960), (3557, 0x8edf), (3558, 0x96e3),
  (3559, 0x6c5d), (3560, 0x4e8c), (3561, 0x5c3c), (3562, 0x5f10), (3563, 0x8fe9),
  (3564, 0x5302), (3565, 0x8cd1), (3566, 0x8089), (3567, 0x8679), (3568, 0x5eff),
  (3569, 0x65e5), (3570, 0x4e73), (3571, 0x5165)]

/-- Lines (pointer, code point) with pointer in [3572, 3760).  encoding_tables/whatwg/index-jis0208.txt:2776-2963 -/
def row19 : List (Nat × Nat) := [
  (3572, 0x5982), (3573, 0x5c3f), (3574, 0x97ee), (3575, 0x4efb), (3576, 0x598a),
  (3577, 0x5fcd), (3578, 0x8a8d), (3579, 0x6fe1), (3580, 0x79b0), (3581, 0x7962),
  (3582, 0x5be7), (3583, 0x8471), (3584, 0x732b), (3585, 0x71b1), (3586, 0x5e74),
  (3587, 0x5ff5), (3588, 0x637b), (3589, 0x649a), (3590, 0x71c3), (3591, 0x7c98),
  (3592, 0x4e43), (3593, 0x5efc), (3594, 0x4e4b), (3595, 0x57dc), (3596, 0x56a2),
  (3597, 0x60a9), (3598, 0x6fc3), (3599, 0x7d0d), (3600, 0x80fd), (3601, 0x8133),
  (3602, 0x81bf), (3603, 0x8fb2), (3604, 0x8997), (3605, 0x86a4), (3606, 0x5df4),
  (3607, 0x628a), (3608, 0x64ad), (3609, 0x8987), (3610, 0x6777), (3611, 0x6ce2),
  (3612, 0x6d3e), (3613, 0x7436), (3614, 0x7834), (3615, 0x5a46), (3616, 0x7f75),
  (3617, 0x82ad), (3618, 0x99ac), (3619, 0x4ff3), (3620, 0x5ec3), (3621, 0x62dd),
  (3622, 0x6392), (3623, 0x6557), (3624, 0x676f), (3625, 0x76c3), (3626, 0x724c),
  (3627, 0x80cc), (3628, 0x80ba), (3629, 0x8f29), (3630, 0x914d), (3631, 0x500d),
  (3632, 0x57f9), (3633, 0x5a92), (3634, 0x6885), (3635, 0x6973), (3636, 0x7164),
  (3637, 0x72fd), (3638, 0x8cb7), (3639, 0x58f2), (3640, 0x8ce0), (3641, 0x966a),
  (3642, 0x9019), (3643, 0x877f), (3644, 0x79e4), (3645, 0x77e7), (3646, 0x8429),
  (3647, 0x4f2f), (3648, 0x5265), (3649, 0x535a), (3650, 0x62cd), (3651, 0x67cf),
  (3652, 0x6cca), (3653, 0x767d), (3654, 0x7b94), (3655, 0x7c95), (3656, 0x8236),
  (3657, 0x8584), (3658, 0x8feb), (3659, 0x66dd), (3660, 0x6f20), (3661, 0x7206),
  (3662, 0x7e1b), (3663, 0x83ab), (3664, 0x99c1), (3665, 0x9ea6), (3666, 0x51fd),
  (3667, 0x7bb1), (3668, 0x7872), (3669, 0x7bb8), (3670, 0x8087), (3671, 0x7b48),
  (3672, 0x6ae8), (3673, 0x5e61), (3674, 0x808c), (3675, 0x7551), (3676, 0x7560),
  (3677, 0x516b), (3678, 0x9262), (3679, 0x6e8c), (3680, 0x767a), (3681, 0x9197),
  (3682, 0x9aea), (3683, 0x4f10), (3684, 0x7f70), (3685, 0x629c), (3686, 0x7b4f),
  (3687, 0x95a5), (3688, 0x9ce9), (3689, 0x567a), (3690, 0x5859), (3691, 0x86e4),
  (3692, 0x96bc), (3693, 0x4f34), (3694, 0x5224), (3695, 0x534a), (3696, 0x53cd),
  (3697, 0x53db), (3698, 0x5e06), (3699, 0x642c), (3700, 0x6591), (3701, 0x677f),
  (3702, 0x6c3e), (3703, 0x6c4e), (3704, 0x7248), (3705, 0x72af), (3706, 0x73ed),
  (3707, 0x7554), (3708, 0x7e41), (3709, 0x822c), (3710, 0x85e9), (3711, 0x8ca9),
  (3712, 0x7bc4), (3713, 0x91c6), (3714, 0x7169), (3715, 0x9812), (3716, 0x98ef),
  (3717, 0x633d), (3718, 0x6669), (3719, 0x756a), (3720, 0x76e4), (3721, 0x78d0),
  (3722, 0x8543), (3723, 0x86ee), (3724, 0x532a), (3725, 0x5351), (3726, 0x5426),
  (3727, 0x5983), (3728, 0x5e87), (3729, 0x5f7c), (3730, 0x60b2), (3731, 0x6249),
  (3732, 0x6279), (3733, 0x62ab), (3734, 0x6590), (3735, 0x6bd4), (3736, 0x6ccc),
  (3737, 0x75b2), (3738, 0x76ae), (3739, 0x7891), (3740, 0x79d8), (3741, 0x7dcb),
  (3742, 0x7f77), (3743, 0x80a5), (3744, 0x88ab), (3745, 0x8ab9), (3746, 0x8cbb),
  (3747, 0x907f), (3748, 0x975e), (3749, 0x98db), (3750, 0x6a0b), (3751, 0x7c38),
  (3752, 0x5099), (3753, 0x5c3e), (3754, 0x5fae), (3755, 0x6787), (3756, 0x6bd8),
  (3757, 0x7435), (3758, 0x7709), (3759, 0x7f8e)]

/-- Lines (pointer, code point) with pointer in [3760, 3948).  encoding_tables/whatwg/index-jis0208.txt:2964-3151 -/
def row20 : List (Nat × Nat) := [
  (3760, 0x9f3b), (3761, 0x67ca), (3762, 0x7a17), (3763, 0x5339), (3764, 0x758b),
  (3765, 0x9aed), (3766, 0x5f66), (3767, 0x819d), (3768, 0x83f1), (3769, 0x8098),
  (3770, 0x5f3c), (3771, 0x5fc5), (3772, 0x7562), (3773, 0x7b46), (3774, 0x903c),
  (3775, 0x6867), (3776, 0x59eb), (3777, 0x5a9b), (3778, 0x7d10), (3779, 0x767e),
  (3780, 0x8b2c), (3781, 0x4ff5), (3782, 0x5f6a), (3783, 0x6a19), (3784, 0x6c37),
  (3785, 0x6f02), (3786, 0x74e2), (3787, 0x7968), (3788, 0x8868), (3789, 0x8a55),
  (3790, 0x8c79), (3791, 0x5edf), (3792, 0x63cf), (3793, 0x75c5), (3794, 0x79d2),
  (3795, 0x82d7), (3796, 0x9328), (3797, 0x92f2), (3798, 0x849c), (3799, 0x86ed),
  (3800, 0x9c2d), (3801, 0x54c1), (3802, 0x5f6c), (3803, 0x658c), (3804, 0x6d5c),
  (3805, 0x7015), (3806, 0x8ca7), (3807, 0x8cd3), (3808, 0x983b), (3809, 0x654f),
  (3810, 0x74f6), (3811, 0x4e0d), (3812, 0x4ed8), (3813, 0x57e0), (3814, 0x592b),
  (3815, 0x5a66), (3816, 0x5bcc), (3817, 0x51a8), (3818, 0x5e03), (3819, 0x5e9c),
  (3820, 0x6016), (3821, 0x6276), (3822, 0x6577), (3823, 0x65a7), (3824, 0x666e),
  (3825, 0x6d6e), (3826, 0x7236), (3827, 0x7b26), (3828, 0x8150), (3829, 0x819a),
  (3830, 0x8299), (3831, 0x8b5c), (3832, 0x8ca0), (3833, 0x8ce6), (3834, 0x8d74),
  (3835, 0x961c), (3836, 0x9644), (3837, 0x4fae), (3838, 0x64ab), (3839, 0x6b66),
  (3840, 0x821e), (3841, 0x8461), (3842, 0x856a), (3843, 0x90e8), (3844, 0x5c01),
  (3845, 0x6953), (3846, 0x98a8), (3847, 0x847a), (3848, 0x8557), (3849, 0x4f0f),
  (3850, 0x526f), (3851, 0x5fa9), (3852, 0x5e45), (3853, 0x670d), (3854, 0x798f),
  (3855, 0x8179), (3856, 0x8907), (3857, 0x8986), (3858, 0x6df5), (3859, 0x5f17),
  (3860, 0x6255), (3861, 0x6cb8), (3862, 0x4ecf), (3863, 0x7269), (3864, 0x9b92),
  (3865, 0x5206), (3866, 0x543b), (3867, 0x5674), (3868, 0x58b3), (3869, 0x61a4),
  (3870, 0x626e), (3871, 0x711a), (3872, 0x596e), (3873, 0x7c89), (3874, 0x7cde),
  (3875, 0x7d1b), (3876, 0x96f0), (3877, 0x6587), (3878, 0x805e), (3879, 0x4e19),
  (3880, 0x4f75), (3881, 0x5175), (3882, 0x5840), (3883, 0x5e63), (3884, 0x5e73),
  (3885, 0x5f0a), (3886, 0x67c4), (3887, 0x4e26), (3888, 0x853d), (3889, 0x9589),
  (3890, 0x965b), (3891, 0x7c73), (3892, 0x9801), (3893, 0x50fb), (3894, 0x58c1),
  (3895, 0x7656), (3896, 0x78a7), (3897, 0x5225), (3898, 0x77a5), (3899, 0x8511),
  (3900, 0x7b86), (3901, 0x504f), (3902, 0x5909), (3903, 0x7247), (3904, 0x7bc7),
  (3905, 0x7de8), (3906, 0x8fba), (3907, 0x8fd4), (3908, 0x904d), (3909, 0x4fbf),
  (3910, 0x52c9), (3911, 0x5a29), (3912, 0x5f01), (3913, 0x97ad), (3914, 0x4fdd),
  (3915, 0x8217), (3916, 0x92ea), (3917, 0x5703), (3918, 0x6355), (3919, 0x6b69),
  (3920, 0x752b), (3921, 0x88dc), (3922, 0x8f14), (3923, 0x7a42), (3924, 0x52df),
  (3925, 0x5893), (3926, 0x6155), (3927, 0x620a), (3928, 0x66ae), (3929, 0x6bcd),
  (3930, 0x7c3f), (3931, 0x83e9), (3932, 0x5023), (3933, 0x4ff8), (3934, 0x5305),
  (3935, 0x5446), (3936, 0x5831), (3937, 0x5949), (3938, 0x5b9d), (3939, 0x5cf0),
  (3940, 0x5cef), (3941, 0x5d29), (3942, 0x5e96), (3943, 0x62b1), (3944, 0x6367),
  (3945, 0x653e), (3946, 0x65b9), (3947, 0x670b)]

/-- Lines (pointer, code point) with pointer in [3948, 4136).  encoding_tables/whatwg/index-jis0208.txt:3152-3339 -/
def row21 : List (Nat × Nat) := [
  (3948, 0x6cd5), (3949, 0x6ce1), (3950, 0x70f9), (3951, 0x7832), (3952, 0x7e2b),
  (3953, 0x80de), (3954, 0x82b3), (3955, 0x840c), (3956, 0x84ec), (3957, 0x8702),
  (3958, 0x8912), (3959, 0x8a2a), (3960, 0x8c4a), (3961, 0x90a6), (3962, 0x92d2),
  (3963, 0x98fd), (3964, 0x9cf3), (3965, 0x9d6c), (3966, 0x4e4f), (3967, 0x4ea1),
  (3968, 0x508d), (3969, 0x5256), (3970, 0x574a), (3971, 0x59a8), (3972, 0x5e3d),
  (3973, 0x5fd8), (3974, 0x5fd9), (3975, 0x623f), (3976, 0x66b4), (3977, 0x671b),
  (3978, 0x67d0), (3979, 0x68d2), (3980, 0x5192), (3981, 0x7d21), (3982, 0x80aa),
  (3983, 0x81a8), (3984, 0x8b00), (3985, 0x8c8c), (3986, 0x8cbf), (3987, 0x927e),
  (3988, 0x9632), (3989, 0x5420), (3990, 0x982c), (3991, 0x5317), (3992, 0x50d5),
  (3993, 0x535c), (3994, 0x58a8), (3995, 0x64b2), (3996, 0x6734), (3997, 0x7267),
  (3998, 0x7766), (3999, 0x7a46), (4000, 0x91e6), (4001, 0x52c3), (4002, 0x6ca1),
  (4003, 0x6b86), (4004, 0x5800), (4005, 0x5e4c), (4006, 0x5954), (4007, 0x672c),
  (4008, 0x7ffb), (4009, 0x51e1), (4010, 0x76c6), (4011, 0x6469), (4012, 0x78e8),
  (4013, 0x9b54), (4014, 0x9ebb), (4015, 0x57cb), (4016, 0x59b9), (4017, 0x6627),
  (4018, 0x679a), (4019, 0x6bce), (4020, 0x54e9), (4021, 0x69d9), (4022, 0x5e55),
  (4023, 0x819c), (4024, 0x6795), (4025, 0x9baa), (4026, 0x67fe), (4027, 0x9c52),
  (4028, 0x685d), (4029, 0x4ea6), (4030, 0x4fe3), (4031, 0x53c8), (4032, 0x62b9),
  (4033, 0x672b), (4034, 0x6cab), (4035, 0x8fc4), (4036, 0x4fad), (4037, 0x7e6d),
  (4038, 0x9ebf), (4039, 0x4e07), (4040, 0x6162), (4041, 0x6e80), (4042, 0x6f2b),
  (4043, 0x8513), (4044, 0x5473), (4045, 0x672a), (4046, 0x9b45), (4047, 0x5df3),
  (4048, 0x7b95), (4049, 0x5cac), (4050, 0x5bc6), (4051, 0x871c), (4052, 0x6e4a),
  (4053, 0x84d1), (4054, 0x7a14), (4055, 0x8108), (4056, 0x5999), (4057, 0x7c8d),
  (4058, 0x6c11), (4059, 0x7720), (4060, 0x52d9), (4061, 0x5922), (4062, 0x7121),
  (4063, 0x725f), (4064, 0x77db), (4065, 0x9727), (4066, 0x9d61), (4067, 0x690b),
  (4068, 0x5a7f), (4069, 0x5a18), (4070, 0x51a5), (4071, 0x540d), (4072, 0x547d),
  (4073, 0x660e), (4074, 0x76df), (4075, 0x8ff7), (4076, 0x9298), (4077, 0x9cf4),
  (4078, 0x59ea), (4079, 0x725d), (4080, 0x6ec5), (4081, 0x514d), (4082, 0x68c9),
  (4083, 0x7dbf), (4084, 0x7dec), (4085, 0x9762), (4086, 0x9eba), (4087, 0x6478),
  (4088, 0x6a21), (4089, 0x8302), (4090, 0x5984), (4091, 0x5b5f), (4092, 0x6bdb),
  (4093, 0x731b), (4094, 0x76f2), (4095, 0x7db2), (4096, 0x8017), (4097, 0x8499),
  (4098, 0x5132), (4099, 0x6728), (4100, 0x9ed9), (4101, 0x76ee), (4102, 0x6762),
  (4103, 0x52ff), (4104, 0x9905), (4105, 0x5c24), (4106, 0x623b), (4107, 0x7c7e),
  (4108, 0x8cb0), (4109, 0x554f), (4110, 0x60b6), (4111, 0x7d0b), (4112, 0x9580),
  (4113, 0x5301), (4114, 0x4e5f), (4115, 0x51b6), (4116, 0x591c), (4117, 0x723a),
  (4118, 0x8036), (4119, 0x91ce), (4120, 0x5f25), (4121, 0x77e2), (4122, 0x5384),
  (4123, 0x5f79), (4124, 0x7d04), (4125, 0x85ac), (4126, 0x8a33), (4127, 0x8e8d),
  (4128, 0x9756), (4129, 0x67f3), (4130, 0x85ae), (4131, 0x9453), (4132, 0x6109),
  (4133, 0x6108), (4134, 0x6cb9), (4135, 0x7652)]

/-- Lines (pointer, code point) with pointer in [4136, 4324).  encoding_tables/whatwg/index-jis0208.txt:3340-3527 -/
def row22 : List (Nat × Nat) := [
  (4136, 0x8aed), (4137, 0x8f38), (4138, 0x552f), (4139, 0x4f51), (4140, 0x512a),
  (4141, 0x52c7), (4142, 0x53cb), (4143, 0x5ba5), (4144, 0x5e7d), (4145, 0x60a0),
  (4146, 0x6182), (4147, 0x63d6), (4148, 0x6709), (4149, 0x67da), (4150, 0x6e67),
  (4151, 0x6d8c), (4152, 0x7336), (4153, 0x7337), (4154, 0x7531), (4155, 0x7950),
  (4156, 0x88d5), (4157, 0x8a98), (4158, 0x904a), (4159, 0x9091), (4160, 0x90f5),
  (4161, 0x96c4), (4162, 0x878d), (4163, 0x5915), (4164, 0x4e88), (4165, 0x4f59),
  (4166, 0x4e0e), (4167, 0x8a89), (4168, 0x8f3f), (4169, 0x9810), (4170, 0x50ad),
  (4171, 0x5e7c), (4172, 0x5996), (4173, 0x5bb9), (4174, 0x5eb8), (4175, 0x63da),
  (4176, 0x63fa), (4177, 0x64c1), (4178, 0x66dc), (4179, 0x694a), (4180, 0x69d8),
  (4181, 0x6d0b), (4182, 0x6eb6), (4183, 0x7194), (4184, 0x7528), (4185, 0x7aaf),
  (4186, 0x7f8a), (4187, 0x8000), (4188, 0x8449), (4189, 0x84c9), (4190, 0x8981),
  (4191, 0x8b21), (4192, 0x8e0a), (4193, 0x9065), (4194, 0x967d), (4195, 0x990a),
  (4196, 0x617e), (4197, 0x6291), (4198, 0x6b32), (4199, 0x6c83), (4200, 0x6d74),
  (4201, 0x7fcc), (4202, 0x7ffc), (4203, 0x6dc0), (4204, 0x7f85), (4205, 0x87ba),
  (4206, 0x88f8), (4207, 0x6765), (4208, 0x83b1), (4209, 0x983c), (4210, 0x96f7),
  (4211, 0x6d1b), (4212, 0x7d61), (4213, 0x843d), (4214, 0x916a), (4215, 0x4e71),
  (4216, 0x5375), (4217, 0x5d50), (4218, 0x6b04), (4219, 0x6feb), (4220, 0x85cd),
  (4221, 0x862d), (4222, 0x89a7), (4223, 0x5229), (4224, 0x540f), (4225, 0x5c65),
  (4226, 0x674e), (4227, 0x68a8), (4228, 0x7406), (4229, 0x7483), (4230, 0x75e2),
  (4231, 0x88cf), (4232, 0x88e1), (4233, 0x91cc), (4234, 0x96e2), (4235, 0x9678),
  (4236, 0x5f8b), (4237, 0x7387), (4238, 0x7acb), (4239, 0x844e), (4240, 0x63a0),
  (4241, 0x7565), (4242, 0x5289), (4243, 0x6d41), (4244, 0x6e9c), (4245, 0x7409),
  (4246, 0x7559), (4247, 0x786b), (4248, 0x7c92), (4249, 0x9686), (4250, 0x7adc),
  (4251, 0x9f8d), (4252, 0x4fb6), (4253, 0x616e), (4254, 0x65c5), (4255, 0x865c),
  (4256, 0x4e86), (4257, 0x4eae), (4258, 0x50da), (4259, 0x4e21), (4260, 0x51cc),
  (4261, 0x5bee), (4262, 0x6599), (4263, 0x6881), (4264, 0x6dbc), (4265, 0x731f),
  (4266, 0x7642), (4267, 0x77ad), (4268, 0x7a1c), (4269, 0x7ce7), (4270, 0x826f),
  (4271, 0x8ad2), (4272, 0x907c), (4273, 0x91cf), (4274, 0x9675), (4275, 0x9818),
  (4276, 0x529b), (4277, 0x7dd1), (4278, 0x502b), (4279, 0x5398), (4280, 0x6797),
  (4281, 0x6dcb), (4282, 0x71d0), (4283, 0x7433), (4284, 0x81e8), (4285, 0x8f2a),
  (4286, 0x96a3), (4287, 0x9c57), (4288, 0x9e9f), (4289, 0x7460), (4290, 0x5841),
  (4291, 0x6d99), (4292, 0x7d2f), (4293, 0x985e), (4294, 0x4ee4), (4295, 0x4f36),
  (4296, 0x4f8b), (4297, 0x51b7), (4298, 0x52b1), (4299, 0x5dba), (4300, 0x601c),
  (4301, 0x73b2), (4302, 0x793c), (4303, 0x82d3), (4304, 0x9234), (4305, 0x96b7),
  (4306, 0x96f6), (4307, 0x970a), (4308, 0x9e97), (4309, 0x9f62), (4310, 0x66a6),
  (4311, 0x6b74), (4312, 0x5217), (4313, 0x52a3), (4314, 0x70c8), (4315, 0x88c2),
  (4316, 0x5ec9), (4317, 0x604b), (4318, 0x6190), (4319, 0x6f23), (4320, 0x7149),
  (4321, 0x7c3e), (4322, 0x7df4), (4323, 0x806f)]

/-- Lines (pointer, code point) with pointer in [4324, 4512).  encoding_tables/whatwg/index-jis0208.txt:3528-3672 -/
def row23 : List (Nat × Nat) := [
  (4324, 0x84ee), (4325, 0x9023), (4326, 0x932c), (4327, 0x5442), (4328, 0x9b6f),
  (4329, 0x6ad3), (4330, 0x7089), (4331, 0x8cc2), (4332, 0x8def), (4333, 0x9732),
  (4334, 0x52b4), (4335, 0x5a41), (4336, 0x5eca), (4337, 0x5f04), (4338, 0x6717),
  (4339, 0x697c), (4340, 0x6994), (4341, 0x6d6a), (4342, 0x6f0f), (4343, 0x7262),
  (4344, 0x72fc), (4345, 0x7bed), (4346, 0x8001), (4347, 0x807e), (4348, 0x874b),
  (4349, 0x90ce), (4350, 0x516d), (4351, 0x9e93), (4352, 0x7984), (4353, 0x808b),
  (4354, 0x9332), (4355, 0x8ad6), (4356, 0x502d), (4357, 0x548c), (4358, 0x8a71),
  (4359, 0x6b6a), (4360, 0x8cc4), (4361, 0x8107), (4362, 0x60d1), (4363, 0x67a0),
  (4364, 0x9df2), (4365, 0x4e99), (4366, 0x4e98), (4367, 0x9c10), (4368, 0x8a6b),
  (4369, 0x85c1), (4370, 0x8568), (4371, 0x6900), (4372, 0x6e7e), (4373, 0x7897),
  (4374, 0x8155), (4418, 0x5f0c), (4419, 0x4e10), (4420, 0x4e15), (4421, 0x4e2a),
  (4422, 0x4e31), (4423, 0x4e36), (4424, 0x4e3c), (4425, 0x4e3f), (4426, 0x4e42),
  (4427, 0x4e56), (4428, 0x4e58), (4429, 0x4e82), (4430, 0x4e85), (4431, 0x8c6b),
  (4432, 0x4e8a), (4433, 0x8212), (4434, 0x5f0d), (4435, 0x4e8e), (4436, 0x4e9e),
  (4437, 0x4e9f), (4438, 0x4ea0), (4439, 0x4ea2), (4440, 0x4eb0), (4441, 0x4eb3),
  (4442, 0x4eb6), (4443, 0x4ece), (4444, 0x4ecd), (4445, 0x4ec4), (4446, 0x4ec6),
  (4447, 0x4ec2), (4448, 0x4ed7), (4449, 0x4ede), (4450, 0x4eed), (4451, 0x4edf),
  (4452, 0x4ef7), (4453, 0x4f09), (4454, 0x4f5a), (4455, 0x4f30), (4456, 0x4f5b),
  (4457, 0x4f5d), (4458, 0x4f57), (4459, 0x4f47), (4460, 0x4f76), (4461, 0x4f88),
  (4462, 0x4f8f), (4463, 0x4f98), (4464, 0x4f7b), (4465, 0x4f69), (4466, 0x4f70),
  (4467, 0x4f91), (4468, 0x4f6f), (4469, 0x4f86), (4470, 0x4f96), (4471, 0x5118),
  (4472, 0x4fd4), (4473, 0x4fdf), (4474, 0x4fce), (4475, 0x4fd8), (4476, 0x4fdb),
  (4477, 0x4fd1), (4478, 0x4fda), (4479, 0x4fd0), (4480, 0x4fe4), (4481, 0x4fe5),
  (4482, 0x501a), (4483, 0x5028), (4484, 0x5014), (4485, 0x502a), (4486, 0x5025),
  (4487, 0x5005), (4488, 0x4f1c), (4489, 0x4ff6), (4490, 0x5021), (4491, 0x5029),
  (4492, 0x502c), (4493, 0x4ffe), (4494, 0x4fef), (4495, 0x5011), (4496, 0x5006),
  (4497, 0x5043), (4498, 0x5047), (4499, 0x6703), (4500, 0x5055), (4501, 0x5050),
  (4502, 0x5048), (4503, 0x505a), (4504, 0x5056), (4505, 0x506c), (4506, 0x5078),
  (4507, 0x5080), (4508, 0x509a), (4509, 0x5085), (4510, 0x50b4), (4511, 0x50b2)]

/-- Lines (pointer, code point) with pointer in [4512, 4700).  encoding_tables/whatwg/index-jis0208.txt:3673-3860 -/
def row24 : List (Nat × Nat) := [
  (4512, 0x50c9), (4513, 0x50ca), (4514, 0x50b3), (4515, 0x50c2), (4516, 0x50d6),
  (4517, 0x50de), (4518, 0x50e5), (4519, 0x50ed), (4520, 0x50e3), (4521, 0x50ee),
  (4522, 0x50f9), (4523, 0x50f5), (4524, 0x5109), (4525, 0x5101), (4526, 0x5102),
  (4527, 0x5116), (4528, 0x5115), (4529, 0x5114), (4530, 0x511a), (4531, 0x5121),
  (4532, 0x513a), (4533, 0x5137), (4534, 0x513c), (4535, 0x513b), (4536, 0x513f),
  (4537, 0x5140), (4538, 0x5152), (4539, 0x514c), (4540, 0x5154), (4541, 0x5162),
  (4542, 0x7af8), (4543, 0x5169), (4544, 0x516a), (4545, 0x516e), (4546, 0x5180),
  (4547, 0x5182), (4548, 0x56d8), (4549, 0x518c), (4550, 0x5189), (4551, 0x518f),
  (4552, 0x5191), (4553, 0x5193), (4554, 0x5195), (4555, 0x5196), (4556, 0x51a4),
  (4557, 0x51a6), (4558, 0x51a2), (4559, 0x51a9), (4560, 0x51aa), (4561, 0x51ab),
  (4562, 0x51b3), (4563, 0x51b1), (4564, 0x51b2), (4565, 0x51b0), (4566, 0x51b5),
  (4567, 0x51bd), (4568, 0x51c5), (4569, 0x51c9), (4570, 0x51db), (4571, 0x51e0),
  (4572, 0x8655), (4573, 0x51e9), (4574, 0x51ed), (4575, 0x51f0), (4576, 0x51f5),
  (4577, 0x51fe), (4578, 0x5204), (4579, 0x520b), (4580, 0x5214), (4581, 0x520e),
  (4582, 0x5227), (4583, 0x522a), (4584, 0x522e), (4585, 0x5233), (4586, 0x5239),
  (4587, 0x524f), (4588, 0x5244), (4589, 0x524b), (4590, 0x524c), (4591, 0x525e),
  (4592, 0x5254), (4593, 0x526a), (4594, 0x5274), (4595, 0x5269), (4596, 0x5273),
  (4597, 0x527f), (4598, 0x527d), (4599, 0x528d), (4600, 0x5294), (4601, 0x5292),
  (4602, 0x5271), (4603, 0x5288), (4604, 0x5291), (4605, 0x8fa8), (4606, 0x8fa7),
  (4607, 0x52ac), (4608, 0x52ad), (4609, 0x52bc), (4610, 0x52b5), (4611, 0x52c1),
  (4612, 0x52cd), (4613, 0x52d7), (4614, 0x52de), (4615, 0x52e3), (4616, 0x52e6),
  (4617, 0x98ed), (4618, 0x52e0), (4619, 0x52f3), (4620, 0x52f5), (4621, 0x52f8),
  (4622, 0x52f9), (4623, 0x5306), (4624, 0x5308), (4625, 0x7538), (4626, 0x530d),
  (4627, 0x5310), (4628, 0x530f), (4629, 0x5315), (4630, 0x531a), (4631, 0x5323),
  (4632, 0x532f), (4633, 0x5331), (4634, 0x5333), (4635, 0x5338), (4636, 0x5340),
  (4637, 0x5346), (4638, 0x5345), (4639, 0x4e17), (4640, 0x5349), (4641, 0x534d),
  (4642, 0x51d6), (4643, 0x535e), (4644, 0x5369), (4645, 0x536e), (4646, 0x5918),
  (4647, 0x537b), (4648, 0x5377), (4649, 0x5382), (4650, 0x5396), (4651, 0x53a0),
  (4652, 0x53a6), (4653, 0x53a5), (4654, 0x53ae), (4655, 0x53b0), (4656, 0x53b6),
  (4657, 0x53c3), (4658, 0x7c12), (4659, 0x96d9), (4660, 0x53df), (4661, 0x66fc),
  (4662, 0x71ee), (4663, 0x53ee), (4664, 0x53e8), (4665, 0x53ed), (4666, 0x53fa),
  (4667, 0x5401), (4668, 0x543d), (4669, 0x5440), (4670, 0x542c), (4671, 0x542d),
  (4672, 0x543c), (4673, 0x542e), (4674, 0x5436), (4675, 0x5429), (4676, 0x541d),
  (4677, 0x544e), (4678, 0x548f), (4679, 0x5475), (4680, 0x548e), (4681, 0x545f),
  (4682, 0x5471), (4683, 0x5477), (4684, 0x5470), (4685, 0x5492), (4686, 0x547b),
  (4687, 0x5480), (4688, 0x5476), (4689, 0x5484), (4690, 0x5490), (4691, 0x5486),
  (4692, 0x54c7), (4693, 0x54a2), (4694, 0x54b8), (4695, 0x54a5), (4696, 0x54ac),
  (4697, 0x54c4), (4698, 0x54c8), (4699, 0x54a8)]

/-- Lines (pointer, code point) with pointer in [4700, 4888).  encoding_tables/whatwg/index-jis0208.txt:3861-4048 -/
def row25 : List (Nat × Nat) := [
  (4700, 0x54ab), (4701, 0x54c2), (4702, 0x54a4), (4703, 0x54be), (4704, 0x54bc),
  (4705, 0x54d8), (4706, 0x54e5), (4707, 0x54e6), (4708, 0x550f), (4709, 0x5514),
  (4710, 0x54fd), (4711, 0x54ee), (4712, 0x54ed), (4713, 0x54fa), (4714, 0x54e2),
  (4715, 0x5539), (4716, 0x5540), (4717, 0x5563), (4718, 0x554c), (4719, 0x552e),
  (4720, 0x555c), (4721, 0x5545), (4722, 0x5556), (4723, 0x5557), (4724, 0x5538),
  (4725, 0x5533), (4726, 0x555d), (4727, 0x5599), (4728, 0x5580), (4729, 0x54af),
  (4730, 0x558a), (4731, 0x559f), (4732, 0x557b), (4733, 0x557e), (4734, 0x5598),
  (4735, 0x559e), (4736, 0x55ae), (4737, 0x557c), (4738, 0x5583), (4739, 0x55a9),
  (4740, 0x5587), (4741, 0x55a8), (4742, 0x55da), (4743, 0x55c5), (4744, 0x55df),
  (4745, 0x55c4), (4746, 0x55dc), (4747, 0x55e4), (4748, 0x55d4), (4749, 0x5614),
  (4750, 0x55f7), (4751, 0x5616), (4752, 0x55fe), (4753, 0x55fd), (4754, 0x561b),
  (4755, 0x55f9), (4756, 0x564e), (4757, 0x5650), (4758, 0x71df), (4759, 0x5634),
  (4760, 0x5636), (4761, 0x5632), (4762, 0x5638), (4763, 0x566b), (4764, 0x5664),
  (4765, 0x562f), (4766, 0x566c), (4767, 0x566a), (4768, 0x5686), (4769, 0x5680),
  (4770, 0x568a), (4771, 0x56a0), (4772, 0x5694), (4773, 0x568f), (4774, 0x56a5),
  (4775, 0x56ae), (4776, 0x56b6), (4777, 0x56b4), (4778, 0x56c2), (4779, 0x56bc),
  (4780, 0x56c1), (4781, 0x56c3), (4782, 0x56c0), (4783, 0x56c8), (4784, 0x56ce),
  (4785, 0x56d1), (4786, 0x56d3), (4787, 0x56d7), (4788, 0x56ee), (4789, 0x56f9),
  (4790, 0x5700), (4791, 0x56ff), (4792, 0x5704), (4793, 0x5709), (4794, 0x5708),
  (4795, 0x570b), (4796, 0x570d), (4797, 0x5713), (4798, 0x5718), (4799, 0x5716),
  (4800, 0x55c7), (4801, 0x571c), (4802, 0x5726), (4803, 0x5737), (4804, 0x5738),
  (4805, 0x574e), (4806, 0x573b), (4807, 0x5740), (4808, 0x574f), (4809, 0x5769),
  (4810, 0x57c0), (4811, 0x5788), (4812, 0x5761), (4813, 0x577f), (4814, 0x5789),
  (4815, 0x5793), (4816, 0x57a0), (4817, 0x57b3), (4818, 0x57a4), (4819, 0x57aa),
  (4820, 0x57b0), (4821, 0x57c3), (4822, 0x57c6), (4823, 0x57d4), (4824, 0x57d2),
  (4825, 0x57d3), (4826, 0x580a), (4827, 0x57d6), (4828, 0x57e3), (4829, 0x580b),
  (4830, 0x5819), (4831, 0x581d), (4832, 0x5872), (4833, 0x5821), (4834, 0x5862),
  (4835, 0x584b), (4836, 0x5870), (4837, 0x6bc0), (4838, 0x5852), (4839, 0x583d),
  (4840, 0x5879), (4841, 0x5885), (4842, 0x58b9), (4843, 0x589f), (4844, 0x58ab),
  (4845, 0x58ba), (4846, 0x58de), (4847, 0x58bb), (4848, 0x58b8), (4849, 0x58ae),
  (4850, 0x58c5), (4851, 0x58d3), (4852, 0x58d1), (4853, 0x58d7), (4854, 0x58d9),
  (4855, 0x58d8), (4856, 0x58e5), (4857, 0x58dc), (4858, 0x58e4), (4859, 0x58df),
  (4860, 0x58ef), (4861, 0x58fa), (4862, 0x58f9), (4863, 0x58fb), (4864, 0x58fc),
  (4865, 0x58fd), (4866, 0x5902), (4867, 0x590a), (4868, 0x5910), (4869, 0x591b),
  (4870, 0x68a6), (4871, 0x5925), (4872, 0x592c), (4873, 0x592d), (4874, 0x5932),
  (4875, 0x5938), (4876, 0x593e), (4877, 0x7ad2), (4878, 0x5955), (4879, 0x5950),
  (4880, 0x594e), (4881, 0x595a), (4882, 0x5958), (4883, 0x5962), (4884, 0x5960),
  (4885, 0x5967), (4886, 0x596c), (4887, 0x5969)]

/-- Lines (pointer, code point) with pointer in [4888, 5076).  encoding_tables/whatwg/index-jis0208.txt:4049-4236 -/
def row26 : List (Nat × Nat) := [
  (4888, 0x5978), (4889, 0x5981), (4890, 0x599d), (4891, 0x4f5e), (4892, 0x4fab),
  (4893, 0x59a3), (4894, 0x59b2), (4895, 0x59c6), (4896, 0x59e8), (4897, 0x59dc),
  (4898, 0x598d), (4899, 0x59d9), (4900, 0x59da), (4901, 0x5a25), (4902, 0x5a1f),
  (4903, 0x5a11), (4904, 0x5a1c), (4905, 0x5a09), (4906, 0x5a1a), (4907, 0x5a40),
  (4908, 0x5a6c), (4909, 0x5a49), (4910, 0x5a35), (4911, 0x5a36), (4912, 0x5a62),
  (4913, 0x5a6a), (4914, 0x5a9a), (4915, 0x5abc), (4916, 0x5abe), (4917, 0x5acb),
  (4918, 0x5ac2), (4919, 0x5abd), (4920, 0x5ae3), (4921, 0x5ad7), (4922, 0x5ae6),
  (4923, 0x5ae9), (4924, 0x5ad6), (4925, 0x5afa), (4926, 0x5afb), (4927, 0x5b0c),
  (4928, 0x5b0b), (4929, 0x5b16), (4930, 0x5b32), (4931, 0x5ad0), (4932, 0x5b2a),
  (4933, 0x5b36), (4934, 0x5b3e), (4935, 0x5b43), (4936, 0x5b45), (4937, 0x5b40),
  (4938, 0x5b51), (4939, 0x5b55), (4940, 0x5b5a), (4941, 0x5b5b), (4942, 0x5b65),
  (4943, 0x5b69), (4944, 0x5b70), (4945, 0x5b73), (4946, 0x5b75), (4947, 0x5b78),
  (4948, 0x6588), (4949, 0x5b7a), (4950, 0x5b80), (4951, 0x5b83), (4952, 0x5ba6),
  (4953, 0x5bb8), (4954, 0x5bc3), (4955, 0x5bc7), (4956, 0x5bc9), (4957, 0x5bd4),
  (4958, 0x5bd0), (4959, 0x5be4), (4960, 0x5be6), (4961, 0x5be2), (4962, 0x5bde),
  (4963, 0x5be5), (4964, 0x5beb), (4965, 0x5bf0), (4966, 0x5bf6), (4967, 0x5bf3),
  (4968, 0x5c05), (4969, 0x5c07), (4970, 0x5c08), (4971, 0x5c0d), (4972, 0x5c13),
  (4973, 0x5c20), (4974, 0x5c22), (4975, 0x5c28), (4976, 0x5c38), (4977, 0x5c39),
  (4978, 0x5c41), (4979, 0x5c46), (4980, 0x5c4e), (4981, 0x5c53), (4982, 0x5c50),
  (4983, 0x5c4f), (4984, 0x5b71), (4985, 0x5c6c), (4986, 0x5c6e), (4987, 0x4e62),
  (4988, 0x5c76), (4989, 0x5c79), (4990, 0x5c8c), (4991, 0x5c91), (4992, 0x5c94),
  (4993, 0x599b), (4994, 0x5cab), (4995, 0x5cbb), (4996, 0x5cb6), (4997, 0x5cbc),
  (4998, 0x5cb7), (4999, 0x5cc5), (5000, 0x5cbe), (5001, 0x5cc7), (5002, 0x5cd9),
  (5003, 0x5ce9), (5004, 0x5cfd), (5005, 0x5cfa), (5006, 0x5ced), (5007, 0x5d8c),
  (5008, 0x5cea), (5009, 0x5d0b), (5010, 0x5d15), (5011, 0x5d17), (5012, 0x5d5c),
  (5013, 0x5d1f), (5014, 0x5d1b), (5015, 0x5d11), (5016, 0x5d14), (5017, 0x5d22),
  (5018, 0x5d1a), (5019, 0x5d19), (5020, 0x5d18), (5021, 0x5d4c), (5022, 0x5d52),
  (5023, 0x5d4e), (5024, 0x5d4b), (5025, 0x5d6c), (5026, 0x5d73), (5027, 0x5d76),
  (5028, 0x5d87), (5029, 0x5d84), (5030, 0x5d82), (5031, 0x5da2), (5032, 0x5d9d),
  (5033, 0x5dac), (5034, 0x5dae), (5035, 0x5dbd), (5036, 0x5d90), (5037, 0x5db7),
  (5038, 0x5dbc), (5039, 0x5dc9), (5040, 0x5dcd), (5041, 0x5dd3), (5042, 0x5dd2),
  (5043, 0x5dd6), (5044, 0x5ddb), (5045, 0x5deb), (5046, 0x5df2), (5047, 0x5df5),
  (5048, 0x5e0b), (5049, 0x5e1a), (5050, 0x5e19), (5051, 0x5e11), (5052, 0x5e1b),
  (5053, 0x5e36), (5054, 0x5e37), (5055, 0x5e44), (5056, 0x5e43), (5057, 0x5e40),
  (5058, 0x5e4e), (5059, 0x5e57), (5060, 0x5e54), (5061, 0x5e5f), (5062, 0x5e62),
  (5063, 0x5e64), (5064, 0x5e47), (5065, 0x5e75), (5066, 0x5e76), (5067, 0x5e7a),
  (5068, 0x9ebc), (5069, 0x5e7f), (5070, 0x5ea0), (5071, 0x5ec1), (5072, 0x5ec2),
  (5073, 0x5ec8), (5074, 0x5ed0), (5075, 0x5ecf)]

/-- Lines (pointer, code point) with pointer in [5076, 5264).  encoding_tables/whatwg/index-jis0208.txt:4237-4424 -/
def row27 : List (Nat × Nat) := [
  (5076, 0x5ed6), (5077, 0x5ee3), (5078, 0x5edd), (5079, 0x5eda), (5080, 0x5edb),
  (5081, 0x5ee2), (5082, 0x5ee1), (5083, 0x5ee8), (5084, 0x5ee9), (5085, 0x5eec),
  (5086, 0x5ef1), (5087, 0x5ef3), (5088, 0x5ef0), (5089, 0x5ef4), (5090, 0x5ef8),
  (5091, 0x5efe), (5092, 0x5f03), (5093, 0x5f09), (5094, 0x5f5d), (5095, 0x5f5c),
  (5096, 0x5f0b), (5097, 0x5f11), (5098, 0x5f16), (5099, 0x5f29), (5100, 0x5f2d),
  (5101, 0x5f38), (5102, 0x5f41), (5103, 0x5f48), (5104, 0x5f4c), (5105, 0x5f4e),
  (5106, 0x5f2f), (5107, 0x5f51), (5108, 0x5f56), (5109, 0x5f57), (5110, 0x5f59),
  (5111, 0x5f61), (5112, 0x5f6d), (5113, 0x5f73), (5114, 0x5f77), (5115, 0x5f83),
  (5116, 0x5f82), (5117, 0x5f7f), (5118, 0x5f8a), (5119, 0x5f88), (5120, 0x5f91),
  (5121, 0x5f87), (5122, 0x5f9e), (5123, 0x5f99), (5124, 0x5f98), (5125, 0x5fa0),
  (5126, 0x5fa8), (5127, 0x5fad), (5128, 0x5fbc), (5129, 0x5fd6), (5130, 0x5ffb),
  (5131, 0x5fe4), (5132, 0x5ff8), (5133, 0x5ff1), (5134, 0x5fdd), (5135, 0x60b3),
  (5136, 0x5fff), (5137, 0x6021), (5138, 0x6060), (5139, 0x6019), (5140, 0x6010),
  (5141, 0x6029), (5142, 0x600e), (5143, 0x6031), (5144, 0x601b), (5145, 0x6015),
  (5146, 0x602b), (5147, 0x6026), (5148, 0x600f), (5149, 0x603a), (5150, 0x605a),
  (5151, 0x6041), (5152, 0x606a), (5153, 0x6077), (5154, 0x605f), (5155, 0x604a),
  (5156, 0x6046), (5157, 0x604d), (5158, 0x6063), (5159, 0x6043), (5160, 0x6064),
  (5161, 0x6042), (5162, 0x606c), (5163, 0x606b), (5164, 0x6059), (5165, 0x6081),
  (5166, 0x608d), (5167, 0x60e7), (5168, 0x6083), (5169, 0x609a), (5170, 0x6084),
  (5171, 0x609b), (5172, 0x6096), (5173, 0x6097), (5174, 0x6092), (5175, 0x60a7),
  (5176, 0x608b), (5177, 0x60e1), (5178, 0x60b8), (5179, 0x60e0), (5180, 0x60d3),
  (5181, 0x60b4), (5182, 0x5ff0), (5183, 0x60bd), (5184, 0x60c6), (5185, 0x60b5),
  (5186, 0x60d8), (5187, 0x614d), (5188, 0x6115), (5189, 0x6106), (5190, 0x60f6),
  (5191, 0x60f7), (5192, 0x6100), (5193, 0x60f4), (5194, 0x60fa), (5195, 0x6103),
  (5196, 0x6121), (5197, 0x60fb), (5198, 0x60f1), (5199, 0x610d), (5200, 0x610e),
  (5201, 0x6147), (5202, 0x613e), (5203, 0x6128), (5204, 0x6127), (5205, 0x614a),
  (5206, 0x613f), (5207, 0x613c), (5208, 0x612c), (5209, 0x6134), (5210, 0x613d),
  (5211, 0x6142), (5212, 0x6144), (5213, 0x6173), (5214, 0x6177), (5215, 0x6158),
  (5216, 0x6159), (5217, 0x615a), (5218, 0x616b), (5219, 0x6174), (5220, 0x616f),
  (5221, 0x6165), (5222, 0x6171), (5223, 0x615f), (5224, 0x615d), (5225, 0x6153),
  (5226, 0x6175), (5227, 0x6199), (5228, 0x6196), (5229, 0x6187), (5230, 0x61ac),
  (5231, 0x6194), (5232, 0x619a), (5233, 0x618a), (5234, 0x6191), (5235, 0x61ab),
  (5236, 0x61ae), (5237, 0x61cc), (5238, 0x61ca), (5239, 0x61c9), (5240, 0x61f7),
  (5241, 0x61c8), (5242, 0x61c3), (5243, 0x61c6), (5244, 0x61ba), (5245, 0x61cb),
  (5246, 0x7f79), (5247, 0x61cd), (5248, 0x61e6), (5249, 0x61e3), (5250, 0x61f6),
  (5251, 0x61fa), (5252, 0x61f4), (5253, 0x61ff), (5254, 0x61fd), (5255, 0x61fc),
  (5256, 0x61fe), (5257, 0x6200), (5258, 0x6208), (5259, 0x6209), (5260, 0x620d),
  (5261, 0x620c), (5262, 0x6214), (5263, 0x621b)]

/-- Lines (pointer, code point) with pointer in [5264, 5452).  encoding_tables/whatwg/index-jis0208.txt:4425-4612 -/
def row28 : List (Nat × Nat) := [
  (5264, 0x621e), (5265, 0x6221), (5266, 0x622a), (5267, 0x622e), (5268, 0x6230),
  (5269, 0x6232), (5270, 0x6233), (5271, 0x6241), (5272, 0x624e), (5273, 0x625e),
  (5274, 0x6263), (5275, 0x625b), (5276, 0x6260), (5277, 0x6268), (5278, 0x627c),
  (5279, 0x6282), (5280, 0x6289), (5281, 0x627e), (5282, 0x6292), (5283, 0x6293),
  (5284, 0x6296), (5285, 0x62d4), (5286, 0x6283), (5287, 0x6294), (5288, 0x62d7),
  (5289, 0x62d1), (5290, 0x62bb), (5291, 0x62cf), (5292, 0x62ff), (5293, 0x62c6),
  (5294, 0x64d4), (5295, 0x62c8), (5296, 0x62dc), (5297, 0x62cc), (5298, 0x62ca),
  (5299, 0x62c2), (5300, 0x62c7), (5301, 0x629b), (5302, 0x62c9), (5303, 0x630c),
  (5304, 0x62ee), (5305, 0x62f1), (5306, 0x6327), (5307, 0x6302), (5308, 0x6308),
  (5309, 0x62ef), (5310, 0x62f5), (5311, 0x6350), (5312, 0x633e), (5313, 0x634d),
  (5314, 0x641c), (5315, 0x634f), (5316, 0x6396), (5317, 0x638e), (5318, 0x6380),
  (5319, 0x63ab), (5320, 0x6376), (5321, 0x63a3), (5322, 0x638f), (5323, 0x6389),
  (5324, 0x639f), (5325, 0x63b5), (5326, 0x636b), (5327, 0x6369), (5328, 0x63be),
  (5329, 0x63e9), (5330, 0x63c0), (5331, 0x63c6), (5332, 0x63e3), (5333, 0x63c9),
  (5334, 0x63d2), (5335, 0x63f6), (5336, 0x63c4), (5337, 0x6416), (5338, 0x6434),
  (5339, 0x6406), (5340, 0x6413), (5341, 0x6426), (5342, 0x6436), (5343, 0x651d),
  (5344, 0x6417), (5345, 0x6428), (5346, 0x640f), (5347, 0x6467), (5348, 0x646f),
  (5349, 0x6476), (5350, 0x644e), (5351, 0x652a), (5352, 0x6495), (5353, 0x6493),
  (5354, 0x64a5), (5355, 0x64a9), (5356, 0x6488), (5357, 0x64bc), (5358, 0x64da),
  (5359, 0x64d2), (5360, 0x64c5), (5361, 0x64c7), (5362, 0x64bb), (5363, 0x64d8),
  (5364, 0x64c2), (5365, 0x64f1), (5366, 0x64e7), (5367, 0x8209), (5368, 0x64e0),
  (5369, 0x64e1), (5370, 0x62ac), (5371, 0x64e3), (5372, 0x64ef), (5373, 0x652c),
  (5374, 0x64f6), (5375, 0x64f4), (5376, 0x64f2), (5377, 0x64fa), (5378, 0x6500),
  (5379, 0x64fd), (5380, 0x6518), (5381, 0x651c), (5382, 0x6505), (5383, 0x6524),
  (5384, 0x6523), (5385, 0x652b), (5386, 0x6534), (5387, 0x6535), (5388, 0x6537),
  (5389, 0x6536), (5390, 0x6538), (5391, 0x754b), (5392, 0x6548), (5393, 0x6556),
  (5394, 0x6555), (5395, 0x654d), (5396, 0x6558), (5397, 0x655e), (5398, 0x655d),
  (5399, 0x6572), (5400, 0x6578), (5401, 0x6582), (5402, 0x6583), (5403, 0x8b8a),
  (5404, 0x659b), (5405, 0x659f), (5406, 0x65ab), (5407, 0x65b7), (5408, 0x65c3),
  (5409, 0x65c6), (5410, 0x65c1), (5411, 0x65c4), (5412, 0x65cc), (5413, 0x65d2),
  (5414, 0x65db), (5415, 0x65d9), (5416, 0x65e0), (5417, 0x65e1), (5418, 0x65f1),
  (5419, 0x6772), (5420, 0x660a), (5421, 0x6603), (5422, 0x65fb), (5423, 0x6773),
  (5424, 0x6635), (5425, 0x6636), (5426, 0x6634), (5427, 0x661c), (5428, 0x664f),
  (5429, 0x6644), (5430, 0x6649), (5431, 0x6641), (5432, 0x665e), (5433, 0x665d),
  (5434, 0x6664), (5435, 0x6667), (5436, 0x6668), (5437, 0x665f), (5438, 0x6662),
  (5439, 0x6670), (5440, 0x6683), (5441, 0x6688), (5442, 0x668e), (5443, 0x6689),
  (5444, 0x6684), (5445, 0x6698), (5446, 0x669d), (5447, 0x66c1), (5448, 0x66b9),
  (5449, 0x66c9), (5450, 0x66be), (5451, 0x66bc)]

/-- Lines (pointer, code point) with pointer in [5452, 5640).  encoding_tables/whatwg/index-jis0208.txt:4613-4800 -/
def row29 : List (Nat × Nat) := [
  (5452, 0x66c4), (5453, 0x66b8), (5454, 0x66d6), (5455, 0x66da), (5456, 0x66e0),
  (5457, 0x663f), (5458, 0x66e6), (5459, 0x66e9), (5460, 0x66f0), (5461, 0x66f5),
  (5462, 0x66f7), (5463, 0x670f), (5464, 0x6716), (5465, 0x671e), (5466, 0x6726),
  (5467, 0x6727), (5468, 0x9738), (5469, 0x672e), (5470, 0x673f), (5471, 0x6736),
  (5472, 0x6741), (5473, 0x6738), (5474, 0x6737), (5475, 0x6746), (5476, 0x675e),
  (5477, 0x6760), (5478, 0x6759), (5479, 0x6763), (5480, 0x6764), (5481, 0x6789),
  (5482, 0x6770), (5483, 0x67a9), (5484, 0x677c), (5485, 0x676a), (5486, 0x678c),
  (5487, 0x678b), (5488, 0x67a6), (5489, 0x67a1), (5490, 0x6785), (5491, 0x67b7),
  (5492, 0x67ef), (5493, 0x67b4), (5494, 0x67ec), (5495, 0x67b3), (5496, 0x67e9),
  (5497, 0x67b8), (5498, 0x67e4), (5499, 0x67de), (5500, 0x67dd), (5501, 0x67e2),
  (5502, 0x67ee), (5503, 0x67b9), (5504, 0x67ce), (5505, 0x67c6), (5506, 0x67e7),
  (5507, 0x6a9c), (5508, 0x681e), (5509, 0x6846), (5510, 0x6829), (5511, 0x6840),
  (5512, 0x684d), (5513, 0x6832), (5514, 0x684e), (5515, 0x68b3), (5516, 0x682b),
  (5517, 0x6859), (5518, 0x6863), (5519, 0x6877), (5520, 0x687f), (5521, 0x689f),
  (5522, 0x688f), (5523, 0x68ad), (5524, 0x6894), (5525, 0x689d), (5526, 0x689b),
  (5527, 0x6883), (5528, 0x6aae), (5529, 0x68b9), (5530, 0x6874), (5531, 0x68b5),
  (5532, 0x68a0), (5533, 0x68ba), (5534, 0x690f), (5535, 0x688d), (5536, 0x687e),
  (5537, 0x6901), (5538, 0x68ca), (5539, 0x6908), (5540, 0x68d8), (5541, 0x6922),
  (5542, 0x6926), (5543, 0x68e1), (5544, 0x690c), (5545, 0x68cd), (5546, 0x68d4),
  (5547, 0x68e7), (5548, 0x68d5), (5549, 0x6936), (5550, 0x6912), (5551, 0x6904),
  (5552, 0x68d7), (5553, 0x68e3), (5554, 0x6925), (5555, 0x68f9), (5556, 0x68e0),
  (5557, 0x68ef), (5558, 0x6928), (5559, 0x692a), (5560, 0x691a), (5561, 0x6923),
  (5562, 0x6921), (5563, 0x68c6), (5564, 0x6979), (5565, 0x6977), (5566, 0x695c),
  (5567, 0x6978), (5568, 0x696b), (5569, 0x6954), (5570, 0x697e), (5571, 0x696e),
  (5572, 0x6939), (5573, 0x6974), (5574, 0x693d), (5575, 0x6959), (5576, 0x6930),
  (5577, 0x6961), (5578, 0x695e), (5579, 0x695d), (5580, 0x6981), (5581, 0x696a),
  (5582, 0x69b2), (5583, 0x69ae), (5584, 0x69d0), (5585, 0x69bf), (5586, 0x69c1),
  (5587, 0x69d3), (5588, 0x69be), (5589, 0x69ce), (5590, 0x5be8), (5591, 0x69ca),
  (5592, 0x69dd), (5593, 0x69bb), (5594, 0x69c3), (5595, 0x69a7), (5596, 0x6a2e),
  (5597, 0x6991), (5598, 0x69a0), (5599, 0x699c), (5600, 0x6995), (5601, 0x69b4),
  (5602, 0x69de), (5603, 0x69e8), (5604, 0x6a02), (5605, 0x6a1b), (5606, 0x69ff),
  (5607, 0x6b0a), (5608, 0x69f9), (5609, 0x69f2), (5610, 0x69e7), (5611, 0x6a05),
  (5612, 0x69b1), (5613, 0x6a1e), (5614, 0x69ed), (5615, 0x6a14), (5616, 0x69eb),
  (5617, 0x6a0a), (5618, 0x6a12), (5619, 0x6ac1), (5620, 0x6a23), (5621, 0x6a13),
  (5622, 0x6a44), (5623, 0x6a0c), (5624, 0x6a72), (5625, 0x6a36), (5626, 0x6a78),
  (5627, 0x6a47), (5628, 0x6a62), (5629, 0x6a59), (5630, 0x6a66), (5631, 0x6a48),
  (5632, 0x6a38), (5633, 0x6a22), (5634, 0x6a90), (5635, 0x6a8d), (5636, 0x6aa0),
  (5637, 0x6a84), (5638, 0x6aa2), (5639, 0x6aa3)]

/-- Lines (pointer, code point) with pointer in [5640, 5828).  encoding_tables/whatwg/index-jis0208.txt:4801-4988 -/
def row30 : List (Nat × Nat) := [
  (5640, 0x6a97), (5641, 0x8617), (5642, 0x6abb), (5643, 0x6ac3), (5644, 0x6ac2),
  (5645, 0x6ab8), (5646, 0x6ab3), (5647, 0x6aac), (5648, 0x6ade), (5649, 0x6ad1),
  (5650, 0x6adf), (5651, 0x6aaa), (5652, 0x6ada), (5653, 0x6aea), (5654, 0x6afb),
  (5655, 0x6b05), (5656, 0x8616), (5657, 0x6afa), (5658, 0x6b12), (5659, 0x6b16),
  (5660, 0x9b31), (5661, 0x6b1f), (5662, 0x6b38), (5663, 0x6b37), (5664, 0x76dc),
  (5665, 0x6b39), (5666, 0x98ee), (5667, 0x6b47), (5668, 0x6b43), (5669, 0x6b49),
  (5670, 0x6b50), (5671, 0x6b59), (5672, 0x6b54), (5673, 0x6b5b), (5674, 0x6b5f),
  (5675, 0x6b61), (5676, 0x6b78), (5677, 0x6b79), (5678, 0x6b7f), (5679, 0x6b80),
  (5680, 0x6b84), (5681, 0x6b83), (5682, 0x6b8d), (5683, 0x6b98), (5684, 0x6b95),
  (5685, 0x6b9e), (5686, 0x6ba4), (5687, 0x6baa), (5688, 0x6bab), (5689, 0x6baf),
  (5690, 0x6bb2), (5691, 0x6bb1), (5692, 0x6bb3), (5693, 0x6bb7), (5694, 0x6bbc),
  (5695, 0x6bc6), (5696, 0x6bcb), (5697, 0x6bd3), (5698, 0x6bdf), (5699, 0x6bec),
  (5700, 0x6beb), (5701, 0x6bf3), (5702, 0x6bef), (5703, 0x9ebe), (5704, 0x6c08),
  (5705, 0x6c13), (5706, 0x6c14), (5707, 0x6c1b), (5708, 0x6c24), (5709, 0x6c23),
  (5710, 0x6c5e), (5711, 0x6c55), (5712, 0x6c62), (5713, 0x6c6a), (5714, 0x6c82),
  (5715, 0x6c8d), (5716, 0x6c9a), (5717, 0x6c81), (5718, 0x6c9b), (5719, 0x6c7e),
  (5720, 0x6c68), (5721, 0x6c73), (5722, 0x6c92), (5723, 0x6c90), (5724, 0x6cc4),
  (5725, 0x6cf1), (5726, 0x6cd3), (5727, 0x6cbd), (5728, 0x6cd7), (5729, 0x6cc5),
  (5730, 0x6cdd), (5731, 0x6cae), (5732, 0x6cb1), (5733, 0x6cbe), (5734, 0x6cba),
  (5735, 0x6cdb), (5736, 0x6cef), (5737, 0x6cd9), (5738, 0x6cea), (5739, 0x6d1f),
  (5740, 0x884d), (5741, 0x6d36), (5742, 0x6d2b), (5743, 0x6d3d), (5744, 0x6d38),
  (5745, 0x6d19), (5746, 0x6d35), (5747, 0x6d33), (5748, 0x6d12), (5749, 0x6d0c),
  (5750, 0x6d63), (5751, 0x6d93), (5752, 0x6d64), (5753, 0x6d5a), (5754, 0x6d79),
  (5755, 0x6d59), (5756, 0x6d8e), (5757, 0x6d95), (5758, 0x6fe4), (5759, 0x6d85),
  (5760, 0x6df9), (5761, 0x6e15), (5762, 0x6e0a), (5763, 0x6db5), (5764, 0x6dc7),
  (5765, 0x6de6), (5766, 0x6db8), (5767, 0x6dc6), (5768, 0x6dec), (5769, 0x6dde),
  (5770, 0x6dcc), (5771, 0x6de8), (5772, 0x6dd2), (5773, 0x6dc5), (5774, 0x6dfa),
  (5775, 0x6dd9), (5776, 0x6de4), (5777, 0x6dd5), (5778, 0x6dea), (5779, 0x6dee),
  (5780, 0x6e2d), (5781, 0x6e6e), (5782, 0x6e2e), (5783, 0x6e19), (5784, 0x6e72),
  (5785, 0x6e5f), (5786, 0x6e3e), (5787, 0x6e23), (5788, 0x6e6b), (5789, 0x6e2b),
  (5790, 0x6e76), (5791, 0x6e4d), (5792, 0x6e1f), (5793, 0x6e43), (5794, 0x6e3a),
  (5795, 0x6e4e), (5796, 0x6e24), (5797, 0x6eff), (5798, 0x6e1d), (5799, 0x6e38),
  (5800, 0x6e82), (5801, 0x6eaa), (5802, 0x6e98), (5803, 0x6ec9), (5804, 0x6eb7),
  (5805, 0x6ed3), (5806, 0x6ebd), (5807, 0x6eaf), (5808, 0x6ec4), (5809, 0x6eb2),
  (5810, 0x6ed4), (5811, 0x6ed5), (5812, 0x6e8f), (5813, 0x6ea5), (5814, 0x6ec2),
  (5815, 0x6e9f), (5816, 0x6f41), (5817, 0x6f11), (5818, 0x704c), (5819, 0x6eec),
  (5820, 0x6ef8), (5821, 0x6efe), (5822, 0x6f3f), (5823, 0x6ef2), (5824, 0x6f31),
  (5825, 0x6eef), (5826, 0x6f32), (5827, 0x6ecc)]

/-- Lines (pointer, code point) with pointer in [5828, 6016).  encoding_tables/whatwg/index-jis0208.txt:4989-5176 -/
def row31 : List (Nat × Nat) := [
  (5828, 0x6f3e), (5829, 0x6f13), (5830, 0x6ef7), (5831, 0x6f86), (5832, 0x6f7a),
  (5833, 0x6f78), (5834, 0x6f81), (5835, 0x6f80), (5836, 0x6f6f), (5837, 0x6f5b),
  (5838, 0x6ff3), (5839, 0x6f6d), (5840, 0x6f82), (5841, 0x6f7c), (5842, 0x6f58),
  (5843, 0x6f8e), (5844, 0x6f91), (5845, 0x6fc2), (5846, 0x6f66), (5847, 0x6fb3),
  (5848, 0x6fa3), (5849, 0x6fa1), (5850, 0x6fa4), (5851, 0x6fb9), (5852, 0x6fc6),
  (5853, 0x6faa), (5854, 0x6fdf), (5855, 0x6fd5), (5856, 0x6fec), (5857, 0x6fd4),
  (5858, 0x6fd8), (5859, 0x6ff1), (5860, 0x6fee), (5861, 0x6fdb), (5862, 0x7009),
  (5863, 0x700b), (5864, 0x6ffa), (5865, 0x7011), (5866, 0x7001), (5867, 0x700f),
  (5868, 0x6ffe), (5869, 0x701b), (5870, 0x701a), (5871, 0x6f74), (5872, 0x701d),
  (5873, 0x7018), (5874, 0x701f), (5875, 0x7030), (5876, 0x703e), (5877, 0x7032),
  (5878, 0x7051), (5879, 0x7063), (5880, 0x7099), (5881, 0x7092), (5882, 0x70af),
  (5883, 0x70f1), (5884, 0x70ac), (5885, 0x70b8), (5886, 0x70b3), (5887, 0x70ae),
  (5888, 0x70df), (5889, 0x70cb), (5890, 0x70dd), (5891, 0x70d9), (5892, 0x7109),
  (5893, 0x70fd), (5894, 0x711c), (5895, 0x7119), (5896, 0x7165), (5897, 0x7155),
  (5898, 0x7188), (5899, 0x7166), (5900, 0x7162), (5901, 0x714c), (5902, 0x7156),
  (5903, 0x716c), (5904, 0x718f), (5905, 0x71fb), (5906, 0x7184), (5907, 0x7195),
  (5908, 0x71a8), (5909, 0x71ac), (5910, 0x71d7), (5911, 0x71b9), (5912, 0x71be),
  (5913, 0x71d2), (5914, 0x71c9), (5915, 0x71d4), (5916, 0x71ce), (5917, 0x71e0),
  (5918, 0x71ec), (5919, 0x71e7), (5920, 0x71f5), (5921, 0x71fc), (5922, 0x71f9),
  (5923, 0x71ff), (5924, 0x720d), (5925, 0x7210), (5926, 0x721b), (5927, 0x7228),
  (5928, 0x722d), (5929, 0x722c), (5930, 0x7230), (5931, 0x7232), (5932, 0x723b),
  (5933, 0x723c), (5934, 0x723f), (5935, 0x7240), (5936, 0x7246), (5937, 0x724b),
  (5938, 0x7258), (5939, 0x7274), (5940, 0x727e), (5941, 0x7282), (5942, 0x7281),
  (5943, 0x7287), (5944, 0x7292), (5945, 0x7296), (5946, 0x72a2), (5947, 0x72a7),
  (5948, 0x72b9), (5949, 0x72b2), (5950, 0x72c3), (5951, 0x72c6), (5952, 0x72c4),
  (5953, 0x72ce), (5954, 0x72d2), (5955, 0x72e2), (5956, 0x72e0), (5957, 0x72e1),
  (5958, 0x72f9), (5959, 0x72f7), (5960, 0x500f), (5961, 0x7317), (5962, 0x730a),
  (5963, 0x731c), (5964, 0x7316), (5965, 0x731d), (5966, 0x7334), (5967, 0x732f),
  (5968, 0x7329), (5969, 0x7325), (5970, 0x733e), (5971, 0x734e), (5972, 0x734f),
  (5973, 0x9ed8), (5974, 0x7357), (5975, 0x736a), (5976, 0x7368), (5977, 0x7370),
  (5978, 0x7378), (5979, 0x7375), (5980, 0x737b), (5981, 0x737a), (5982, 0x73c8),
  (5983, 0x73b3), (5984, 0x73ce), (5985, 0x73bb), (5986, 0x73c0), (5987, 0x73e5),
  (5988, 0x73ee), (5989, 0x73de), (5990, 0x74a2), (5991, 0x7405), (5992, 0x746f),
  (5993, 0x7425), (5994, 0x73f8), (5995, 0x7432), (5996, 0x743a), (5997, 0x7455),
  (5998, 0x743f), (5999, 0x745f), (6000, 0x7459), (6001, 0x7441), (6002, 0x745c),
  (6003, 0x7469), (6004, 0x7470), (6005, 0x7463), (6006, 0x746a), (6007, 0x7476),
  (6008, 0x747e), (6009, 0x748b), (6010, 0x749e), (6011, 0x74a7), (6012, 0x74ca),
  (6013, 0x74cf), (6014, 0x74d4), (6015, 0x73f1)]

/-- Lines (pointer, code point) with pointer in [6016, 6204).  encoding_tables/whatwg/index-jis0208.txt:5177-5364 -/
def row32 : List (Nat × Nat) := [
  (6016, 0x74e0), (6017, 0x74e3), (6018, 0x74e7), (6019, 0x74e9), (6020, 0x74ee),
  (6021, 0x74f2), (6022, 0x74f0), (6023, 0x74f1), (6024, 0x74f8), (6025, 0x74f7),
  (6026, 0x7504), (6027, 0x7503), (6028, 0x7505), (6029, 0x750c), (6030, 0x750e),
  (6031, 0x750d), (6032, 0x7515), (6033, 0x7513), (6034, 0x751e), (6035, 0x7526),
  (6036, 0x752c), (6037, 0x753c), (6038, 0x7544), (6039, 0x754d), (6040, 0x754a),
  (6041, 0x7549), (6042, 0x755b), (6043, 0x7546), (6044, 0x755a), (6045, 0x7569),
  (6046, 0x7564), (6047, 0x7567), (6048, 0x756b), (6049, 0x756d), (6050, 0x7578),
  (6051, 0x7576), (6052, 0x7586), (6053, 0x7587), (6054, 0x7574), (6055, 0x758a),
  (6056, 0x7589), (6057, 0x7582), (6058, 0x7594), (6059, 0x759a), (6060, 0x759d),
  (6061, 0x75a5), (6062, 0x75a3), (6063, 0x75c2), (6064, 0x75b3), (6065, 0x75c3),
  (6066, 0x75b5), (6067, 0x75bd), (6068, 0x75b8), (6069, 0x75bc), (6070, 0x75b1),
  (6071, 0x75cd), (6072, 0x75ca), (6073, 0x75d2), (6074, 0x75d9), (6075, 0x75e3),
  (6076, 0x75de), (6077, 0x75fe), (6078, 0x75ff), (6079, 0x75fc), (6080, 0x7601),
  (6081, 0x75f0), (6082, 0x75fa), (6083, 0x75f2), (6084, 0x75f3), (6085, 0x760b),
  (6086, 0x760d), (6087, 0x7609), (6088, 0x761f), (6089, 0x7627), (6090, 0x7620),
  (6091, 0x7621), (6092, 0x7622), (6093, 0x7624), (6094, 0x7634), (6095, 0x7630),
  (6096, 0x763b), (6097, 0x7647), (6098, 0x7648), (6099, 0x7646), (6100, 0x765c),
  (6101, 0x7658), (6102, 0x7661), (6103, 0x7662), (6104, 0x7668), (6105, 0x7669),
  (6106, 0x766a), (6107, 0x7667), (6108, 0x766c), (6109, 0x7670), (6110, 0x7672),
  (6111, 0x7676), (6112, 0x7678), (6113, 0x767c), (6114, 0x7680), (6115, 0x7683),
  (6116, 0x7688), (6117, 0x768b), (6118, 0x768e), (6119, 0x7696), (6120, 0x7693),
  (6121, 0x7699), (6122, 0x769a), (6123, 0x76b0), (6124, 0x76b4), (6125, 0x76b8),
  (6126, 0x76b9), (6127, 0x76ba), (6128, 0x76c2), (6129, 0x76cd), (6130, 0x76d6),
  (6131, 0x76d2), (6132, 0x76de), (6133, 0x76e1), (6134, 0x76e5), (6135, 0x76e7),
  (6136, 0x76ea), (6137, 0x862f), (6138, 0x76fb), (6139, 0x7708), (6140, 0x7707),
  (6141, 0x7704), (6142, 0x7729), (6143, 0x7724), (6144, 0x771e), (6145, 0x7725),
  (6146, 0x7726), (6147, 0x771b), (6148, 0x7737), (6149, 0x7738), (6150, 0x7747),
  (6151, 0x775a), (6152, 0x7768), (6153, 0x776b), (6154, 0x775b), (6155, 0x7765),
  (6156, 0x777f), (6157, 0x777e), (6158, 0x7779), (6159, 0x778e), (6160, 0x778b),
  (6161, 0x7791), (6162, 0x77a0), (6163, 0x779e), (6164, 0x77b0), (6165, 0x77b6),
  (6166, 0x77b9), (6167, 0x77bf), (6168, 0x77bc), (6169, 0x77bd), (6170, 0x77bb),
  (6171, 0x77c7), (6172, 0x77cd), (6173, 0x77d7), (6174, 0x77da), (6175, 0x77dc),
  (6176, 0x77e3), (6177, 0x77ee), (6178, 0x77fc), (6179, 0x780c), (6180, 0x7812),
  (6181, 0x7926), (6182, 0x7820), (6183, 0x792a), (6184, 0x7845), (6185, 0x788e),
  (6186, 0x7874), (6187, 0x7886), (6188, 0x787c), (6189, 0x789a), (6190, 0x788c),
  (6191, 0x78a3), (6192, 0x78b5), (6193, 0x78aa), (6194, 0x78af), (6195, 0x78d1),
  (6196, 0x78c6), (6197, 0x78cb), (6198, 0x78d4), (6199, 0x78be), (6200, 0x78bc),
  (6201, 0x78c5), (6202, 0x78ca), (6203, 0x78ec)]

/-- Lines (pointer, code point) with pointer in [6204, 6392).  encoding_tables/whatwg/index-jis0208.txt:5365-5552 -/
def row33 : List (Nat × Nat) := [
  (6204, 0x78e7), (6205, 0x78da), (6206, 0x78fd), (6207, 0x78f4), (6208, 0x7907),
  (6209, 0x7912), (6210, 0x7911), (6211, 0x7919), (6212, 0x792c), (6213, 0x792b),
  (6214, 0x7940), (6215, 0x7960), (6216, 0x7957), (6217, 0x795f), (6218, 0x795a),
  (6219, 0x7955), (6220, 0x7953), (6221, 0x797a), (6222, 0x797f), (6223, 0x798a),
  (6224, 0x799d), (6225, 0x79a7), (6226, 0x9f4b), (6227, 0x79aa), (6228, 0x79ae),
  (6229, 0x79b3), (6230, 0x79b9), (6231, 0x79ba), (6232, 0x79c9), (6233, 0x79d5),
  (6234, 0x79e7), (6235, 0x79ec), (6236, 0x79e1), (6237, 0x79e3), (6238, 0x7a08),
  (6239, 0x7a0d), (6240, 0x7a18), (6241, 0x7a19), (6242, 0x7a20), (6243, 0x7a1f),
  (6244, 0x7980), (6245, 0x7a31), (6246, 0x7a3b), (6247, 0x7a3e), (6248, 0x7a37),
  (6249, 0x7a43), (6250, 0x7a57), (6251, 0x7a49), (6252, 0x7a61), (6253, 0x7a62),
  (6254, 0x7a69), (6255, 0x9f9d), (6256, 0x7a70), (6257, 0x7a79), (6258, 0x7a7d),
  (6259, 0x7a88), (6260, 0x7a97), (6261, 0x7a95), (6262, 0x7a98), (6263, 0x7a96),
  (6264, 0x7aa9), (6265, 0x7ac8), (6266, 0x7ab0), (6267, 0x7ab6), (6268, 0x7ac5),
  (6269, 0x7ac4), (6270, 0x7abf), (6271, 0x9083), (6272, 0x7ac7), (6273, 0x7aca),
  (6274, 0x7acd), (6275, 0x7acf), (6276, 0x7ad5), (6277, 0x7ad3), (6278, 0x7ad9),
  (6279, 0x7ada), (6280, 0x7add), (6281, 0x7ae1), (6282, 0x7ae2), (6283, 0x7ae6),
  (6284, 0x7aed), (6285, 0x7af0), (6286, 0x7b02), (6287, 0x7b0f), (6288, 0x7b0a),
  (6289, 0x7b06), (6290, 0x7b33), (6291, 0x7b18), (6292, 0x7b19), (6293, 0x7b1e),
  (6294, 0x7b35), (6295, 0x7b28), (6296, 0x7b36), (6297, 0x7b50), (6298, 0x7b7a),
  (6299, 0x7b04), (6300, 0x7b4d), (6301, 0x7b0b), (6302, 0x7b4c), (6303, 0x7b45),
  (6304, 0x7b75), (6305, 0x7b65), (6306, 0x7b74), (6307, 0x7b67), (6308, 0x7b70),
  (6309, 0x7b71), (6310, 0x7b6c), (6311, 0x7b6e), (6312, 0x7b9d), (6313, 0x7b98),
  (6314, 0x7b9f), (6315, 0x7b8d), (6316, 0x7b9c), (6317, 0x7b9a), (6318, 0x7b8b),
  (6319, 0x7b92), (6320, 0x7b8f), (6321, 0x7b5d), (6322, 0x7b99), (6323, 0x7bcb),
  (6324, 0x7bc1), (6325, 0x7bcc), (6326, 0x7bcf), (6327, 0x7bb4), (6328, 0x7bc6),
  (6329, 0x7bdd), (6330, 0x7be9), (6331, 0x7c11), (6332, 0x7c14), (6333, 0x7be6),
  (6334, 0x7be5), (6335, 0x7c60), (6336, 0x7c00), (6337, 0x7c07), (6338, 0x7c13),
  (6339, 0x7bf3), (6340, 0x7bf7), (6341, 0x7c17), (6342, 0x7c0d), (6343, 0x7bf6),
  (6344, 0x7c23), (6345, 0x7c27), (6346, 0x7c2a), (6347, 0x7c1f), (6348, 0x7c37),
  (6349, 0x7c2b), (6350, 0x7c3d), (6351, 0x7c4c), (6352, 0x7c43), (6353, 0x7c54),
  (6354, 0x7c4f), (6355, 0x7c40), (6356, 0x7c50), (6357, 0x7c58), (6358, 0x7c5f),
  (6359, 0x7c64), (6360, 0x7c56), (6361, 0x7c65), (6362, 0x7c6c), (6363, 0x7c75),
  (6364, 0x7c83), (6365, 0x7c90), (6366, 0x7ca4), (6367, 0x7cad), (6368, 0x7ca2),
  (6369, 0x7cab), (6370, 0x7ca1), (6371, 0x7ca8), (6372, 0x7cb3), (6373, 0x7cb2),
  (6374, 0x7cb1), (6375, 0x7cae), (6376, 0x7cb9), (6377, 0x7cbd), (6378, 0x7cc0),
  (6379, 0x7cc5), (6380, 0x7cc2), (6381, 0x7cd8), (6382, 0x7cd2), (6383, 0x7cdc),
  (6384, 0x7ce2), (6385, 0x9b3b), (6386, 0x7cef), (6387, 0x7cf2), (6388, 0x7cf4),
  (6389, 0x7cf6), (6390, 0x7cfa), (6391, 0x7d06)]

/-- Lines (pointer, code point) with pointer in [6392, 6580).  encoding_tables/whatwg/index-jis0208.txt:5553-5740 -/
def row34 : List (Nat × Nat) := [
  (6392, 0x7d02), (6393, 0x7d1c), (6394, 0x7d15), (6395, 0x7d0a), (6396, 0x7d45),
  (6397, 0x7d4b), (6398, 0x7d2e), (6399, 0x7d32), (6400, 0x7d3f), (6401, 0x7d35),
  (6402, 0x7d46), (6403, 0x7d73), (6404, 0x7d56), (6405, 0x7d4e), (6406, 0x7d72),
  (6407, 0x7d68), (6408, 0x7d6e), (6409, 0x7d4f), (6410, 0x7d63), (6411, 0x7d93),
  (6412, 0x7d89), (6413, 0x7d5b), (6414, 0x7d8f), (6415, 0x7d7d), (6416, 0x7d9b),
  (6417, 0x7dba), (6418, 0x7dae), (6419, 0x7da3), (6420, 0x7db5), (6421, 0x7dc7),
  (6422, 0x7dbd), (6423, 0x7dab), (6424, 0x7e3d), (6425, 0x7da2), (6426, 0x7daf),
  (6427, 0x7ddc), (6428, 0x7db8), (6429, 0x7d9f), (6430, 0x7db0), (6431, 0x7dd8),
  (6432, 0x7ddd), (6433, 0x7de4), (6434, 0x7dde), (6435, 0x7dfb), (6436, 0x7df2),
  (6437, 0x7de1), (6438, 0x7e05), (6439, 0x7e0a), (6440, 0x7e23), (6441, 0x7e21),
  (6442, 0x7e12), (6443, 0x7e31), (6444, 0x7e1f), (6445, 0x7e09), (6446, 0x7e0b),
  (6447, 0x7e22), (6448, 0x7e46), (6449, 0x7e66), (6450, 0x7e3b), (6451, 0x7e35),
  (6452, 0x7e39), (6453, 0x7e43), (6454, 0x7e37), (6455, 0x7e32), (6456, 0x7e3a),
  (6457, 0x7e67), (6458, 0x7e5d), (6459, 0x7e56), (6460, 0x7e5e), (6461, 0x7e59),
  (6462, 0x7e5a), (6463, 0x7e79), (6464, 0x7e6a), (6465, 0x7e69), (6466, 0x7e7c),
  (6467, 0x7e7b), (6468, 0x7e83), (6469, 0x7dd5), (6470, 0x7e7d), (6471, 0x8fae),
  (6472, 0x7e7f), (6473, 0x7e88), (6474, 0x7e89), (6475, 0x7e8c), (6476, 0x7e92),
  (6477, 0x7e90), (6478, 0x7e93), (6479, 0x7e94), (6480, 0x7e96), (6481, 0x7e8e),
  (6482, 0x7e9b), (6483, 0x7e9c), (6484, 0x7f38), (6485, 0x7f3a), (6486, 0x7f45),
  (6487, 0x7f4c), (6488, 0x7f4d), (6489, 0x7f4e), (6490, 0x7f50), (6491, 0x7f51),
  (6492, 0x7f55), (6493, 0x7f54), (6494, 0x7f58), (6495, 0x7f5f), (6496, 0x7f60),
  (6497, 0x7f68), (6498, 0x7f69), (6499, 0x7f67), (6500, 0x7f78), (6501, 0x7f82),
  (6502, 0x7f86), (6503, 0x7f83), (6504, 0x7f88), (6505, 0x7f87), (6506, 0x7f8c),
  (6507, 0x7f94), (6508, 0x7f9e), (6509, 0x7f9d), (6510, 0x7f9a), (6511, 0x7fa3),
  (6512, 0x7faf), (6513, 0x7fb2), (6514, 0x7fb9), (6515, 0x7fae), (6516, 0x7fb6),
  (6517, 0x7fb8), (6518, 0x8b71), (6519, 0x7fc5), (6520, 0x7fc6), (6521, 0x7fca),
  (6522, 0x7fd5), (6523, 0x7fd4), (6524, 0x7fe1), (6525, 0x7fe6), (6526, 0x7fe9),
  (6527, 0x7ff3), (6528, 0x7ff9), (6529, 0x98dc), (6530, 0x8006), (6531, 0x8004),
  (6532, 0x800b), (6533, 0x8012), (6534, 0x8018), (6535, 0x8019), (6536, 0x801c),
  (6537, 0x8021), (6538, 0x8028), (6539, 0x803f), (6540, 0x803b), (6541, 0x804a),
  (6542, 0x8046), (6543, 0x8052), (6544, 0x8058), (6545, 0x805a), (6546, 0x805f),
  (6547, 0x8062), (6548, 0x8068), (6549, 0x8073), (6550, 0x8072), (6551, 0x8070),
  (6552, 0x8076), (6553, 0x8079), (6554, 0x807d), (6555, 0x807f), (6556, 0x8084),
  (6557, 0x8086), (6558, 0x8085), (6559, 0x809b), (6560, 0x8093), (6561, 0x809a),
  (6562, 0x80ad), (6563, 0x5190), (6564, 0x80ac), (6565, 0x80db), (6566, 0x80e5),
  (6567, 0x80d9), (6568, 0x80dd), (6569, 0x80c4), (6570, 0x80da), (6571, 0x80d6),
  (6572, 0x8109), (6573, 0x80ef), (6574, 0x80f1), (6575, 0x811b), (6576, 0x8129),
  (6577, 0x8123), (6578, 0x812f), (6579, 0x814b)]

/-- Lines (pointer, code point) with pointer in [6580, 6768).  encoding_tables/whatwg/index-jis0208.txt:5741-5928 -/
def row35 : List (Nat × Nat) := [
  (6580, 0x968b), (6581, 0x8146), (6582, 0x813e), (6583, 0x8153), (6584, 0x8151),
  (6585, 0x80fc), (6586, 0x8171), (6587, 0x816e), (6588, 0x8165), (6589, 0x8166),
  (6590, 0x8174), (6591, 0x8183), (6592, 0x8188), (6593, 0x818a), (6594, 0x8180),
  (6595, 0x8182), (6596, 0x81a0), (6597, 0x8195), (6598, 0x81a4), (6599, 0x81a3),
  (6600, 0x815f), (6601, 0x8193), (6602, 0x81a9), (6603, 0x81b0), (6604, 0x81b5),
  (6605, 0x81be), (6606, 0x81b8), (6607, 0x81bd), (6608, 0x81c0), (6609, 0x81c2),
  (6610, 0x81ba), (6611, 0x81c9), (6612, 0x81cd), (6613, 0x81d1), (6614, 0x81d9),
  (6615, 0x81d8), (6616, 0x81c8), (6617, 0x81da), (6618, 0x81df), (6619, 0x81e0),
  (6620, 0x81e7), (6621, 0x81fa), (6622, 0x81fb), (6623, 0x81fe), (6624, 0x8201),
  (6625, 0x8202), (6626, 0x8205), (6627, 0x8207), (6628, 0x820a), (6629, 0x820d),
  (6630, 0x8210), (6631, 0x8216), (6632, 0x8229), (6633, 0x822b), (6634, 0x8238),
  (6635, 0x8233), (6636, 0x8240), (6637, 0x8259), (6638, 0x8258), (6639, 0x825d),
  (6640, 0x825a), (6641, 0x825f), (6642, 0x8264), (6643, 0x8262), (6644, 0x8268),
  (6645, 0x826a), (6646, 0x826b), (6647, 0x822e), (6648, 0x8271), (6649, 0x8277),
  (6650, 0x8278), (6651, 0x827e), (6652, 0x828d), (6653, 0x8292), (6654, 0x82ab),
  (6655, 0x829f), (6656, 0x82bb), (6657, 0x82ac), (6658, 0x82e1), (6659, 0x82e3),
  (6660, 0x82df), (6661, 0x82d2), (6662, 0x82f4), (6663, 0x82f3), (6664, 0x82fa),
  (6665, 0x8393), (6666, 0x8303), (6667, 0x82fb), (6668, 0x82f9), (6669, 0x82de),
  (6670, 0x8306), (6671, 0x82dc), (6672, 0x8309), (6673, 0x82d9), (6674, 0x8335),
  (6675, 0x8334), (6676, 0x8316), (6677, 0x8332), (6678, 0x8331), (6679, 0x8340),
  (6680, 0x8339), (6681, 0x8350), (6682, 0x8345), (6683, 0x832f), (6684, 0x832b),
  (6685, 0x8317), (6686, 0x8318), (6687, 0x8385), (6688, 0x839a), (6689, 0x83aa),
  (6690, 0x839f), (6691, 0x83a2), (6692, 0x8396), (6693, 0x8323), (6694, 0x838e),
  (6695, 0x8387), (6696, 0x838a), (6697, 0x837c), (6698, 0x83b5), (6699, 0x8373),
  (6700, 0x8375), (6701, 0x83a0), (6702, 0x8389), (6703, 0x83a8), (6704, 0x83f4),
  (6705, 0x8413), (6706, 0x83eb), (6707, 0x83ce), (6708, 0x83fd), (6709, 0x8403),
  (6710, 0x83d8), (6711, 0x840b), (6712, 0x83c1), (6713, 0x83f7), (6714, 0x8407),
  (6715, 0x83e0), (6716, 0x83f2), (6717, 0x840d), (6718, 0x8422), (6719, 0x8420),
  (6720, 0x83bd), (6721, 0x8438), (6722, 0x8506), (6723, 0x83fb), (6724, 0x846d),
  (6725, 0x842a), (6726, 0x843c), (6727, 0x855a), (6728, 0x8484), (6729, 0x8477),
  (6730, 0x846b), (6731, 0x84ad), (6732, 0x846e), (6733, 0x8482), (6734, 0x8469),
  (6735, 0x8446), (6736, 0x842c), (6737, 0x846f), (6738, 0x8479), (6739, 0x8435),
  (6740, 0x84ca), (6741, 0x8462), (6742, 0x84b9), (6743, 0x84bf), (6744, 0x849f),
  (6745, 0x84d9), (6746, 0x84cd), (6747, 0x84bb), (6748, 0x84da), (6749, 0x84d0),
  (6750, 0x84c1), (6751, 0x84c6), (6752, 0x84d6), (6753, 0x84a1), (6754, 0x8521),
  (6755, 0x84ff), (6756, 0x84f4), (6757, 0x8517), (6758, 0x8518), (6759, 0x852c),
  (6760, 0x851f), (6761, 0x8515), (6762, 0x8514), (6763, 0x84fc), (6764, 0x8540),
  (6765, 0x8563), (6766, 0x8558), (6767, 0x8548)]

/-- Lines (pointer, code point) with pointer in [6768, 6956).  encoding_tables/whatwg/index-jis0208.txt:5929-6116 -/
def row36 : List (Nat × Nat) := [
  (6768, 0x8541), (6769, 0x8602), (6770, 0x854b), (6771, 0x8555), (6772, 0x8580),
  (6773, 0x85a4), (6774, 0x8588), (6775, 0x8591), (6776, 0x858a), (6777, 0x85a8),
  (6778, 0x856d), (6779, 0x8594), (6780, 0x859b), (6781, 0x85ea), (6782, 0x8587),
  (6783, 0x859c), (6784, 0x8577), (6785, 0x857e), (6786, 0x8590), (6787, 0x85c9),
  (6788, 0x85ba), (6789, 0x85cf), (6790, 0x85b9), (6791, 0x85d0), (6792, 0x85d5),
  (6793, 0x85dd), (6794, 0x85e5), (6795, 0x85dc), (6796, 0x85f9), (6797, 0x860a),
  (6798, 0x8613), (6799, 0x860b), (6800, 0x85fe), (6801, 0x85fa), (6802, 0x8606),
  (6803, 0x8622), (6804, 0x861a), (6805, 0x8630), (6806, 0x863f), (6807, 0x864d),
  (6808, 0x4e55), (6809, 0x8654), (6810, 0x865f), (6811, 0x8667), (6812, 0x8671),
  (6813, 0x8693), (6814, 0x86a3), (6815, 0x86a9), (6816, 0x86aa), (6817, 0x868b),
  (6818, 0x868c), (6819, 0x86b6), (6820, 0x86af), (6821, 0x86c4), (6822, 0x86c6),
  (6823, 0x86b0), (6824, 0x86c9), (6825, 0x8823), (6826, 0x86ab), (6827, 0x86d4),
  (6828, 0x86de), (6829, 0x86e9), (6830, 0x86ec), (6831, 0x86df), (6832, 0x86db),
  (6833, 0x86ef), (6834, 0x8712), (6835, 0x8706), (6836, 0x8708), (6837, 0x8700),
  (6838, 0x8703), (6839, 0x86fb), (6840, 0x8711), (6841, 0x8709), (6842, 0x870d),
  (6843, 0x86f9), (6844, 0x870a), (6845, 0x8734), (6846, 0x873f), (6847, 0x8737),
  (6848, 0x873b), (6849, 0x8725), (6850, 0x8729), (6851, 0x871a), (6852, 0x8760),
  (6853, 0x875f), (6854, 0x8778), (6855, 0x874c), (6856, 0x874e), (6857, 0x8774),
  (6858, 0x8757), (6859, 0x8768), (6860, 0x876e), (6861, 0x8759), (6862, 0x8753),
  (6863, 0x8763), (6864, 0x876a), (6865, 0x8805), (6866, 0x87a2), (6867, 0x879f),
  (6868, 0x8782), (6869, 0x87af), (6870, 0x87cb), (6871, 0x87bd), (6872, 0x87c0),
  (6873, 0x87d0), (6874, 0x96d6), (6875, 0x87ab), (6876, 0x87c4), (6877, 0x87b3),
  (6878, 0x87c7), (6879, 0x87c6), (6880, 0x87bb), (6881, 0x87ef), (6882, 0x87f2),
  (6883, 0x87e0), (6884, 0x880f), (6885, 0x880d), (6886, 0x87fe), (6887, 0x87f6),
  (6888, 0x87f7), (6889, 0x880e), (6890, 0x87d2), (6891, 0x8811), (6892, 0x8816),
  (6893, 0x8815), (6894, 0x8822), (6895, 0x8821), (6896, 0x8831), (6897, 0x8836),
  (6898, 0x8839), (6899, 0x8827), (6900, 0x883b), (6901, 0x8844), (6902, 0x8842),
  (6903, 0x8852), (6904, 0x8859), (6905, 0x885e), (6906, 0x8862), (6907, 0x886b),
  (6908, 0x8881), (6909, 0x887e), (6910, 0x889e), (6911, 0x8875), (6912, 0x887d),
  (6913, 0x88b5), (6914, 0x8872), (6915, 0x8882), (6916, 0x8897), (6917, 0x8892),
  (6918, 0x88ae), (6919, 0x8899), (6920, 0x88a2), (6921, 0x888d), (6922, 0x88a4),
  (6923, 0x88b0), (6924, 0x88bf), (6925, 0x88b1), (6926, 0x88c3), (6927, 0x88c4),
  (6928, 0x88d4), (6929, 0x88d8), (6930, 0x88d9), (6931, 0x88dd), (6932, 0x88f9),
  (6933, 0x8902), (6934, 0x88fc), (6935, 0x88f4), (6936, 0x88e8), (6937, 0x88f2),
  (6938, 0x8904), (6939, 0x890c), (6940, 0x890a), (6941, 0x8913), (6942, 0x8943),
  (6943, 0x891e), (6944, 0x8925), (6945, 0x892a), (6946, 0x892b), (6947, 0x8941),
  (6948, 0x8944), (6949, 0x893b), (6950, 0x8936), (6951, 0x8938), (6952, 0x894c),
  (6953, 0x891d), (6954, 0x8960), (6955, 0x895e)]

/-- Lines (pointer, code point) with pointer in [6956, 7144).  encoding_tables/whatwg/index-jis0208.txt:6117-6304 -/
def row37 : List (Nat × Nat) := [
  (6956, 0x8966), (6957, 0x8964), (6958, 0x896d), (6959, 0x896a), (6960, 0x896f),
  (6961, 0x8974), (6962, 0x8977), (6963, 0x897e), (6964, 0x8983), (6965, 0x8988),
  (6966, 0x898a), (6967, 0x8993), (6968, 0x8998), (6969, 0x89a1), (6970, 0x89a9),
  (6971, 0x89a6), (6972, 0x89ac), (6973, 0x89af), (6974, 0x89b2), (6975, 0x89ba),
  (6976, 0x89bd), (6977, 0x89bf), (6978, 0x89c0), (6979, 0x89da), (6980, 0x89dc),
  (6981, 0x89dd), (6982, 0x89e7), (6983, 0x89f4), (6984, 0x89f8), (6985, 0x8a03),
  (6986, 0x8a16), (6987, 0x8a10), (6988, 0x8a0c), (6989, 0x8a1b), (6990, 0x8a1d),
  (6991, 0x8a25), (6992, 0x8a36), (6993, 0x8a41), (6994, 0x8a5b), (6995, 0x8a52),
  (6996, 0x8a46), (6997, 0x8a48), (6998, 0x8a7c), (6999, 0x8a6d), (7000, 0x8a6c),
  (7001, 0x8a62), (7002, 0x8a85), (7003, 0x8a82), (7004, 0x8a84), (7005, 0x8aa8),
  (7006, 0x8aa1), (7007, 0x8a91), (7008, 0x8aa5), (7009, 0x8aa6), (7010, 0x8a9a),
  (7011, 0x8aa3), (7012, 0x8ac4), (7013, 0x8acd), (7014, 0x8ac2), (7015, 0x8ada),
  (7016, 0x8aeb), (7017, 0x8af3), (7018, 0x8ae7), (7019, 0x8ae4), (7020, 0x8af1),
  (7021, 0x8b14), (7022, 0x8ae0), (7023, 0x8ae2), (7024, 0x8af7), (7025, 0x8ade),
  (7026, 0x8adb), (7027, 0x8b0c), (7028, 0x8b07), (7029, 0x8b1a), (7030, 0x8ae1),
  (7031, 0x8b16), (7032, 0x8b10), (7033, 0x8b17), (7034, 0x8b20), (7035, 0x8b33),
  (7036, 0x97ab), (7037, 0x8b26), (7038, 0x8b2b), (7039, 0x8b3e), (7040, 0x8b28),
  (7041, 0x8b41), (7042, 0x8b4c), (7043, 0x8b4f), (7044, 0x8b4e), (7045, 0x8b49),
  (7046, 0x8b56), (7047, 0x8b5b), (7048, 0x8b5a), (7049, 0x8b6b), (7050, 0x8b5f),
  (7051, 0x8b6c), (7052, 0x8b6f), (7053, 0x8b74), (7054, 0x8b7d), (7055, 0x8b80),
  (7056, 0x8b8c), (7057, 0x8b8e), (7058, 0x8b92), (7059, 0x8b93), (7060, 0x8b96),
  (7061, 0x8b99), (7062, 0x8b9a), (7063, 0x8c3a), (7064, 0x8c41), (7065, 0x8c3f),
  (7066, 0x8c48), (7067, 0x8c4c), (7068, 0x8c4e), (7069, 0x8c50), (7070, 0x8c55),
  (7071, 0x8c62), (7072, 0x8c6c), (7073, 0x8c78), (7074, 0x8c7a), (7075, 0x8c82),
  (7076, 0x8c89), (7077, 0x8c85), (7078, 0x8c8a), (7079, 0x8c8d), (7080, 0x8c8e),
  (7081, 0x8c94), (7082, 0x8c7c), (7083, 0x8c98), (7084, 0x621d), (7085, 0x8cad),
  (7086, 0x8caa), (7087, 0x8cbd), (7088, 0x8cb2), (7089, 0x8cb3), (7090, 0x8cae),
  (7091, 0x8cb6), (7092, 0x8cc8), (7093, 0x8cc1), (7094, 0x8ce4), (7095, 0x8ce3),
  (7096, 0x8cda), (7097, 0x8cfd), (7098, 0x8cfa), (7099, 0x8cfb), (7100, 0x8d04),
  (7101, 0x8d05), (7102, 0x8d0a), (7103, 0x8d07), (7104, 0x8d0f), (7105, 0x8d0d),
  (7106, 0x8d10), (7107, 0x9f4e), (7108, 0x8d13), (7109, 0x8ccd), (7110, 0x8d14),
  (7111, 0x8d16), (7112, 0x8d67), (7113, 0x8d6d), (7114, 0x8d71), (7115, 0x8d73),
  (7116, 0x8d81), (7117, 0x8d99), (7118, 0x8dc2), (7119, 0x8dbe), (7120, 0x8dba),
  (7121, 0x8dcf), (7122, 0x8dda), (7123, 0x8dd6), (7124, 0x8dcc), (7125, 0x8ddb),
  (7126, 0x8dcb), (7127, 0x8dea), (7128, 0x8deb), (7129, 0x8ddf), (7130, 0x8de3),
  (7131, 0x8dfc), (7132, 0x8e08), (7133, 0x8e09), (7134, 0x8dff), (7135, 0x8e1d),
  (7136, 0x8e1e), (7137, 0x8e10), (7138, 0x8e1f), (7139, 0x8e42), (7140, 0x8e35),
  (7141, 0x8e30), (7142, 0x8e34), (7143, 0x8e4a)]

/-- Lines (pointer, code point) with pointer in [7144, 7332).  encoding_tables/whatwg/index-jis0208.txt:6305-6492 -/
def row38 : List (Nat × Nat) := [
  (7144, 0x8e47), (7145, 0x8e49), (7146, 0x8e4c), (7147, 0x8e50), (7148, 0x8e48),
  (7149, 0x8e59), (7150, 0x8e64), (7151, 0x8e60), (7152, 0x8e2a), (7153, 0x8e63),
  (7154, 0x8e55), (7155, 0x8e76), (7156, 0x8e72), (7157, 0x8e7c), (7158, 0x8e81),
  (7159, 0x8e87), (7160, 0x8e85), (7161, 0x8e84), (7162, 0x8e8b), (7163, 0x8e8a),
  (7164, 0x8e93), (7165, 0x8e91), (7166, 0x8e94), (7167, 0x8e99), (7168, 0x8eaa),
  (7169, 0x8ea1), (7170, 0x8eac), (7171, 0x8eb0), (7172, 0x8ec6), (7173, 0x8eb1),
  (7174, 0x8ebe), (7175, 0x8ec5), (7176, 0x8ec8), (7177, 0x8ecb), (7178, 0x8edb),
  (7179, 0x8ee3), (7180, 0x8efc), (7181, 0x8efb), (7182, 0x8eeb), (7183, 0x8efe),
  (7184, 0x8f0a), (7185, 0x8f05), (7186, 0x8f15), (7187, 0x8f12), (7188, 0x8f19),
  (7189, 0x8f13), (7190, 0x8f1c), (7191, 0x8f1f), (7192, 0x8f1b), (7193, 0x8f0c),
  (7194, 0x8f26), (7195, 0x8f33), (7196, 0x8f3b), (7197, 0x8f39), (7198, 0x8f45),
  (7199, 0x8f42), (7200, 0x8f3e), (7201, 0x8f4c), (7202, 0x8f49), (7203, 0x8f46),
  (7204, 0x8f4e), (7205, 0x8f57), (7206, 0x8f5c), (7207, 0x8f62), (7208, 0x8f63),
  (7209, 0x8f64), (7210, 0x8f9c), (7211, 0x8f9f), (7212, 0x8fa3), (7213, 0x8fad),
  (7214, 0x8faf), (7215, 0x8fb7), (7216, 0x8fda), (7217, 0x8fe5), (7218, 0x8fe2),
  (7219, 0x8fea), (7220, 0x8fef), (7221, 0x9087), (7222, 0x8ff4), (7223, 0x9005),
  (7224, 0x8ff9), (7225, 0x8ffa), (7226, 0x9011), (7227, 0x9015), (7228, 0x9021),
  (7229, 0x900d), (7230, 0x901e), (7231, 0x9016), (7232, 0x900b), (7233, 0x9027),
  (7234, 0x9036), (7235, 0x9035), (7236, 0x9039), (7237, 0x8ff8), (7238, 0x904f),
  (7239, 0x9050), (7240, 0x9051), (7241, 0x9052), (7242, 0x900e), (7243, 0x9049),
  (7244, 0x903e), (7245, 0x9056), (7246, 0x9058), (7247, 0x905e), (7248, 0x9068),
  (7249, 0x906f), (7250, 0x9076), (7251, 0x96a8), (7252, 0x9072), (7253, 0x9082),
  (7254, 0x907d), (7255, 0x9081), (7256, 0x9080), (7257, 0x908a), (7258, 0x9089),
  (7259, 0x908f), (7260, 0x90a8), (7261, 0x90af), (7262, 0x90b1), (7263, 0x90b5),
  (7264, 0x90e2), (7265, 0x90e4), (7266, 0x6248), (7267, 0x90db), (7268, 0x9102),
  (7269, 0x9112), (7270, 0x9119), (7271, 0x9132), (7272, 0x9130), (7273, 0x914a),
  (7274, 0x9156), (7275, 0x9158), (7276, 0x9163), (7277, 0x9165), (7278, 0x9169),
  (7279, 0x9173), (7280, 0x9172), (7281, 0x918b), (7282, 0x9189), (7283, 0x9182),
  (7284, 0x91a2), (7285, 0x91ab), (7286, 0x91af), (7287, 0x91aa), (7288, 0x91b5),
  (7289, 0x91b4), (7290, 0x91ba), (7291, 0x91c0), (7292, 0x91c1), (7293, 0x91c9),
  (7294, 0x91cb), (7295, 0x91d0), (7296, 0x91d6), (7297, 0x91df), (7298, 0x91e1),
  (7299, 0x91db), (7300, 0x91fc), (7301, 0x91f5), (7302, 0x91f6), (7303, 0x921e),
  (7304, 0x91ff), (7305, 0x9214), (7306, 0x922c), (7307, 0x9215), (7308, 0x9211),
  (7309, 0x925e), (7310, 0x9257), (7311, 0x9245), (7312, 0x9249), (7313, 0x9264),
  (7314, 0x9248), (7315, 0x9295), (7316, 0x923f), (7317, 0x924b), (7318, 0x9250),
  (7319, 0x929c), (7320, 0x9296), (7321, 0x9293), (7322, 0x929b), (7323, 0x925a),
  (7324, 0x92cf), (7325, 0x92b9), (7326, 0x92b7), (7327, 0x92e9), (7328, 0x930f),
  (7329, 0x92fa), (7330, 0x9344), (7331, 0x932e)]

/-- Lines (pointer, code point) with pointer in [7332, 7520).  encoding_tables/whatwg/index-jis0208.txt:6493-6680 -/
def row39 : List (Nat × Nat) := [
  (7332, 0x9319), (7333, 0x9322), (7334, 0x931a), (7335, 0x9323), (7336, 0x933a),
  (7337, 0x9335), (7338, 0x933b), (7339, 0x935c), (7340, 0x9360), (7341, 0x937c),
  (7342, 0x936e), (7343, 0x9356), (7344, 0x93b0), (7345, 0x93ac), (7346, 0x93ad),
  (7347, 0x9394), (7348, 0x93b9), (7349, 0x93d6), (7350, 0x93d7), (7351, 0x93e8),
  (7352, 0x93e5), (7353, 0x93d8), (7354, 0x93c3), (7355, 0x93dd), (7356, 0x93d0),
  (7357, 0x93c8), (7358, 0x93e4), (7359, 0x941a), (7360, 0x9414), (7361, 0x9413),
  (7362, 0x9403), (7363, 0x9407), (7364, 0x9410), (7365, 0x9436), (7366, 0x942b),
  (7367, 0x9435), (7368, 0x9421), (7369, 0x943a), (7370, 0x9441), (7371, 0x9452),
  (7372, 0x9444), (7373, 0x945b), (7374, 0x9460), (7375, 0x9462), (7376, 0x945e),
  (7377, 0x946a), (7378, 0x9229), (7379, 0x9470), (7380, 0x9475), (7381, 0x9477),
  (7382, 0x947d), (7383, 0x945a), (7384, 0x947c), (7385, 0x947e), (7386, 0x9481),
  (7387, 0x947f), (7388, 0x9582), (7389, 0x9587), (7390, 0x958a), (7391, 0x9594),
  (7392, 0x9596), (7393, 0x9598), (7394, 0x9599), (7395, 0x95a0), (7396, 0x95a8),
  (7397, 0x95a7), (7398, 0x95ad), (7399, 0x95bc), (7400, 0x95bb), (7401, 0x95b9),
  (7402, 0x95be), (7403, 0x95ca), (7404, 0x6ff6), (7405, 0x95c3), (7406, 0x95cd),
  (7407, 0x95cc), (7408, 0x95d5), (7409, 0x95d4), (7410, 0x95d6), (7411, 0x95dc),
  (7412, 0x95e1), (7413, 0x95e5), (7414, 0x95e2), (7415, 0x9621), (7416, 0x9628),
  (7417, 0x962e), (7418, 0x962f), (7419, 0x9642), (7420, 0x964c), (7421, 0x964f),
  (7422, 0x964b), (7423, 0x9677), (7424, 0x965c), (7425, 0x965e), (7426, 0x965d),
  (7427, 0x965f), (7428, 0x9666), (7429, 0x9672), (7430, 0x966c), (7431, 0x968d),
  (7432, 0x9698), (7433, 0x9695), (7434, 0x9697), (7435, 0x96aa), (7436, 0x96a7),
  (7437, 0x96b1), (7438, 0x96b2), (7439, 0x96b0), (7440, 0x96b4), (7441, 0x96b6),
  (7442, 0x96b8), (7443, 0x96b9), (7444, 0x96ce), (7445, 0x96cb), (7446, 0x96c9),
  (7447, 0x96cd), (7448, 0x894d), (7449, 0x96dc), (7450, 0x970d), (7451, 0x96d5),
  (7452, 0x96f9), (7453, 0x9704), (7454, 0x9706), (7455, 0x9708), (7456, 0x9713),
  (7457, 0x970e), (7458, 0x9711), (7459, 0x970f), (7460, 0x9716), (7461, 0x9719),
  (7462, 0x9724), (7463, 0x972a), (7464, 0x9730), (7465, 0x9739), (7466, 0x973d),
  (7467, 0x973e), (7468, 0x9744), (7469, 0x9746), (7470, 0x9748), (7471, 0x9742),
  (7472, 0x9749), (7473, 0x975c), (7474, 0x9760), (7475, 0x9764), (7476, 0x9766),
  (7477, 0x9768), (7478, 0x52d2), (7479, 0x976b), (7480, 0x9771), (7481, 0x9779),
  (7482, 0x9785), (7483, 0x977c), (7484, 0x9781), (7485, 0x977a), (7486, 0x9786),
  (7487, 0x978b), (7488, 0x978f), (7489, 0x9790), (7490, 0x979c), (7491, 0x97a8),
  (7492, 0x97a6), (7493, 0x97a3), (7494, 0x97b3), (7495, 0x97b4), (7496, 0x97c3),
  (7497, 0x97c6), (7498, 0x97c8), (7499, 0x97cb), (7500, 0x97dc), (7501, 0x97ed),
  (7502, 0x9f4f), (7503, 0x97f2), (7504, 0x7adf), (7505, 0x97f6), (7506, 0x97f5),
  (7507, 0x980f), (7508, 0x980c), (7509, 0x9838), (7510, 0x9824), (7511, 0x9821),
  (7512, 0x9837), (7513, 0x983d), (7514, 0x9846), (7515, 0x984f), (7516, 0x984b),
  (7517, 0x986b), (7518, 0x986f), (7519, 0x9870)]

/-- Lines (pointer, code point) with pointer in [7520, 7708).  encoding_tables/whatwg/index-jis0208.txt:6681-6868 -/
def row40 : List (Nat × Nat) := [
  (7520, 0x9871), (7521, 0x9874), (7522, 0x9873), (7523, 0x98aa), (7524, 0x98af),
  (7525, 0x98b1), (7526, 0x98b6), (7527, 0x98c4), (7528, 0x98c3), (7529, 0x98c6),
  (7530, 0x98e9), (7531, 0x98eb), (7532, 0x9903), (7533, 0x9909), (7534, 0x9912),
  (7535, 0x9914), (7536, 0x9918), (7537, 0x9921), (7538, 0x991d), (7539, 0x991e),
  (7540, 0x9924), (7541, 0x9920), (7542, 0x992c), (7543, 0x992e), (7544, 0x993d),
  (7545, 0x993e), (7546, 0x9942), (7547, 0x9949), (7548, 0x9945), (7549, 0x9950),
  (7550, 0x994b), (7551, 0x9951), (7552, 0x9952), (7553, 0x994c), (7554, 0x9955),
  (7555, 0x9997), (7556, 0x9998), (7557, 0x99a5), (7558, 0x99ad), (7559, 0x99ae),
  (7560, 0x99bc), (7561, 0x99df), (7562, 0x99db), (7563, 0x99dd), (7564, 0x99d8),
  (7565, 0x99d1), (7566, 0x99ed), (7567, 0x99ee), (7568, 0x99f1), (7569, 0x99f2),
  (7570, 0x99fb), (7571, 0x99f8), (7572, 0x9a01), (7573, 0x9a0f), (7574, 0x9a05),
  (7575, 0x99e2), (7576, 0x9a19), (7577, 0x9a2b), (7578, 0x9a37), (7579, 0x9a45),
  (7580, 0x9a42), (7581, 0x9a40), (7582, 0x9a43), (7583, 0x9a3e), (7584, 0x9a55),
  (7585, 0x9a4d), (7586, 0x9a5b), (7587, 0x9a57), (7588, 0x9a5f), (7589, 0x9a62),
  (7590, 0x9a65), (7591, 0x9a64), (7592, 0x9a69), (7593, 0x9a6b), (7594, 0x9a6a),
  (7595, 0x9aad), (7596, 0x9ab0), (7597, 0x9abc), (7598, 0x9ac0), (7599, 0x9acf),
  (7600, 0x9ad1), (7601, 0x9ad3), (7602, 0x9ad4), (7603, 0x9ade), (7604, 0x9adf),
  (7605, 0x9ae2), (7606, 0x9ae3), (7607, 0x9ae6), (7608, 0x9aef), (7609, 0x9aeb),
  (7610, 0x9aee), (7611, 0x9af4), (7612, 0x9af1), (7613, 0x9af7), (7614, 0x9afb),
  (7615, 0x9b06), (7616, 0x9b18), (7617, 0x9b1a), (7618, 0x9b1f), (7619, 0x9b22),
  (7620, 0x9b23), (7621, 0x9b25), (7622, 0x9b27), (7623, 0x9b28), (7624, 0x9b29),
  (7625, 0x9b2a), (7626, 0x9b2e), (7627, 0x9b2f), (7628, 0x9b32), (7629, 0x9b44),
  (7630, 0x9b43), (7631, 0x9b4f), (7632, 0x9b4d), (7633, 0x9b4e), (7634, 0x9b51),
  (7635, 0x9b58), (7636, 0x9b74), (7637, 0x9b93), (7638, 0x9b83), (7639, 0x9b91),
  (7640, 0x9b96), (7641, 0x9b97), (7642, 0x9b9f), (7643, 0x9ba0), (7644, 0x9ba8),
  (7645, 0x9bb4), (7646, 0x9bc0), (7647, 0x9bca), (7648, 0x9bb9), (7649, 0x9bc6),
  (7650, 0x9bcf), (7651, 0x9bd1), (7652, 0x9bd2), (7653, 0x9be3), (7654, 0x9be2),
  (7655, 0x9be4), (7656, 0x9bd4), (7657, 0x9be1), (7658, 0x9c3a), (7659, 0x9bf2),
  (7660, 0x9bf1), (7661, 0x9bf0), (7662, 0x9c15), (7663, 0x9c14), (7664, 0x9c09),
  (7665, 0x9c13), (7666, 0x9c0c), (7667, 0x9c06), (7668, 0x9c08), (7669, 0x9c12),
  (7670, 0x9c0a), (7671, 0x9c04), (7672, 0x9c2e), (7673, 0x9c1b), (7674, 0x9c25),
  (7675, 0x9c24), (7676, 0x9c21), (7677, 0x9c30), (7678, 0x9c47), (7679, 0x9c32),
  (7680, 0x9c46), (7681, 0x9c3e), (7682, 0x9c5a), (7683, 0x9c60), (7684, 0x9c67),
  (7685, 0x9c76), (7686, 0x9c78), (7687, 0x9ce7), (7688, 0x9cec), (7689, 0x9cf0),
  (7690, 0x9d09), (7691, 0x9d08), (7692, 0x9ceb), (7693, 0x9d03), (7694, 0x9d06),
  (7695, 0x9d2a), (7696, 0x9d26), (7697, 0x9daf), (7698, 0x9d23), (7699, 0x9d1f),
  (7700, 0x9d44), (7701, 0x9d15), (7702, 0x9d12), (7703, 0x9d41), (7704, 0x9d3f),
  (7705, 0x9d3e), (7706, 0x9d46), (7707, 0x9d48)]

/-- Lines (pointer, code point) with pointer in [7708, 7896).  encoding_tables/whatwg/index-jis0208.txt:6869-6968 -/
def row41 : List (Nat × Nat) := [
  (7708, 0x9d5d), (7709, 0x9d5e), (7710, 0x9d64), (7711, 0x9d51), (7712, 0x9d50),
  (7713, 0x9d59), (7714, 0x9d72), (7715, 0x9d89), (7716, 0x9d87), (7717, 0x9dab),
  (7718, 0x9d6f), (7719, 0x9d7a), (7720, 0x9d9a), (7721, 0x9da4), (7722, 0x9da9),
  (7723, 0x9db2), (7724, 0x9dc4), (7725, 0x9dc1), (7726, 0x9dbb), (7727, 0x9db8),
  (7728, 0x9dba), (7729, 0x9dc6), (7730, 0x9dcf), (7731, 0x9dc2), (7732, 0x9dd9),
  (7733, 0x9dd3), (7734, 0x9df8), (7735, 0x9de6), (7736, 0x9ded), (7737, 0x9def),
  (7738, 0x9dfd), (7739, 0x9e1a), (7740, 0x9e1b), (7741, 0x9e1e), (7742, 0x9e75),
  (7743, 0x9e79), (7744, 0x9e7d), (7745, 0x9e81), (7746, 0x9e88), (7747, 0x9e8b),
  (7748, 0x9e8c), (7749, 0x9e92), (7750, 0x9e95), (7751, 0x9e91), (7752, 0x9e9d),
  (7753, 0x9ea5), (7754, 0x9ea9), (7755, 0x9eb8), (7756, 0x9eaa), (7757, 0x9ead),
  (7758, 0x9761), (7759, 0x9ecc), (7760, 0x9ece), (7761, 0x9ecf), (7762, 0x9ed0),
  (7763, 0x9ed4), (7764, 0x9edc), (7765, 0x9ede), (7766, 0x9edd), (7767, 0x9ee0),
  (7768, 0x9ee5), (7769, 0x9ee8), (7770, 0x9eef), (7771, 0x9ef4), (7772, 0x9ef6),
  (7773, 0x9ef7), (7774, 0x9ef9), (7775, 0x9efb), (7776, 0x9efc), (7777, 0x9efd),
  (7778, 0x9f07), (7779, 0x9f08), (7780, 0x76b7), (7781, 0x9f15), (7782, 0x9f21),
  (7783, 0x9f2c), (7784, 0x9f3e), (7785, 0x9f4a), (7786, 0x9f52), (7787, 0x9f54),
  (7788, 0x9f63), (7789, 0x9f5f), (7790, 0x9f60), (7791, 0x9f61), (7792, 0x9f66),
  (7793, 0x9f67), (7794, 0x9f6c), (7795, 0x9f6a), (7796, 0x9f77), (7797, 0x9f72),
  (7798, 0x9f76), (7799, 0x9f95), (7800, 0x9f9c), (7801, 0x9fa0), (7802, 0x582f),
  (7803, 0x69c7), (7804, 0x9059), (7805, 0x7464), (7806, 0x51dc), (7807, 0x7199)]

/-- Lines (pointer, code point) with pointer in [7896, 8084).  encoding_tables/whatwg/index-jis0208.txt (no line) -/
def row42 : List (Nat × Nat) := []

/-- Lines (pointer, code point) with pointer in [8084, 8272).  encoding_tables/whatwg/index-jis0208.txt (no line) -/
def row43 : List (Nat × Nat) := []

/-- Lines (pointer, code point) with pointer in [8272, 8460).  encoding_tables/whatwg/index-jis0208.txt:6969-7156 -/
def row44 : List (Nat × Nat) := [
  (8272, 0x7e8a), (8273, 0x891c), (8274, 0x9348), (8275, 0x9288), (8276, 0x84dc),
  (8277, 0x4fc9), (8278, 0x70bb), (8279, 0x6631), (8280, 0x68c8), (8281, 0x92f9),
  (8282, 0x66fb), (8283, 0x5f45), (8284, 0x4e28), (8285, 0x4ee1), (8286, 0x4efc),
  (8287, 0x4f00), (8288, 0x4f03), (8289, 0x4f39), (8290, 0x4f56), (8291, 0x4f92),
  (8292, 0x4f8a), (8293, 0x4f9a), (8294, 0x4f94), (8295, 0x4fcd), (8296, 0x5040),
  (8297, 0x5022), (8298, 0x4fff), (8299, 0x501e), (8300, 0x5046), (8301, 0x5070),
  (8302, 0x5042), (8303, 0x5094), (8304, 0x50f4), (8305, 0x50d8), (8306, 0x514a),
  (8307, 0x5164), (8308, 0x519d), (8309, 0x51be), (8310, 0x51ec), (8311, 0x5215),
  (8312, 0x529c), (8313, 0x52a6), (8314, 0x52c0), (8315, 0x52db), (8316, 0x5300),
  (8317, 0x5307), (8318, 0x5324), (8319, 0x5372), (8320, 0x5393), (8321, 0x53b2),
  (8322, 0x53dd), (8323, 0xfa0e), (8324, 0x549c), (8325, 0x548a), (8326, 0x54a9),
  (8327, 0x54ff), (8328, 0x5586), (8329, 0x5759), (8330, 0x5765), (8331, 0x57ac),
  (8332, 0x57c8), (8333, 0x57c7), (8334, 0xfa0f), (8335, 0xfa10), (8336, 0x589e),
  (8337, 0x58b2), (8338, 0x590b), (8339, 0x5953), (8340, 0x595b), (8341, 0x595d),
  (8342, 0x5963), (8343, 0x59a4), (8344, 0x59ba), (8345, 0x5b56), (8346, 0x5bc0),
  (8347, 0x752f), (8348, 0x5bd8), (8349, 0x5bec), (8350, 0x5c1e), (8351, 0x5ca6),
  (8352, 0x5cba), (8353, 0x5cf5), (8354, 0x5d27), (8355, 0x5d53), (8356, 0xfa11),
  (8357, 0x5d42), (8358, 0x5d6d), (8359, 0x5db8), (8360, 0x5db9), (8361, 0x5dd0),
  (8362, 0x5f21), (8363, 0x5f34), (8364, 0x5f67), (8365, 0x5fb7), (8366, 0x5fde),
  (8367, 0x605d), (8368, 0x6085), (8369, 0x608a), (8370, 0x60de), (8371, 0x60d5),
  (8372, 0x6120), (8373, 0x60f2), (8374, 0x6111), (8375, 0x6137), (8376, 0x6130),
  (8377, 0x6198), (8378, 0x6213), (8379, 0x62a6), (8380, 0x63f5), (8381, 0x6460),
  (8382, 0x649d), (8383, 0x64ce), (8384, 0x654e), (8385, 0x6600), (8386, 0x6615),
  (8387, 0x663b), (8388, 0x6609), (8389, 0x662e), (8390, 0x661e), (8391, 0x6624),
  (8392, 0x6665), (8393, 0x6657), (8394, 0x6659), (8395, 0xfa12), (8396, 0x6673),
  (8397, 0x6699), (8398, 0x66a0), (8399, 0x66b2), (8400, 0x66bf), (8401, 0x66fa),
  (8402, 0x670e), (8403, 0xf929), (8404, 0x6766), (8405, 0x67bb), (8406, 0x6852),
  (8407, 0x67c0), (8408, 0x6801), (8409, 0x6844), (8410, 0x68cf), (8411, 0xfa13),
  (8412, 0x6968), (8413, 0xfa14), (8414, 0x6998), (8415, 0x69e2), (8416, 0x6a30),
  (8417, 0x6a6b), (8418, 0x6a46), (8419, 0x6a73), (8420, 0x6a7e), (8421, 0x6ae2),
  (8422, 0x6ae4), (8423, 0x6bd6), (8424, 0x6c3f), (8425, 0x6c5c), (8426, 0x6c86),
  (8427, 0x6c6f), (8428, 0x6cda), (8429, 0x6d04), (8430, 0x6d87), (8431, 0x6d6f),
  (8432, 0x6d96), (8433, 0x6dac), (8434, 0x6dcf), (8435, 0x6df8), (8436, 0x6df2),
  (8437, 0x6dfc), (8438, 0x6e39), (8439, 0x6e5c), (8440, 0x6e27), (8441, 0x6e3c),
  (8442, 0x6ebf), (8443, 0x6f88), (8444, 0x6fb5), (8445, 0x6ff5), (8446, 0x7005),
  (8447, 0x7007), (8448, 0x7028), (8449, 0x7085), (8450, 0x70ab), (8451, 0x710f),
  (8452, 0x7104), (8453, 0x715c), (8454, 0x7146), (8455, 0x7147), (8456, 0xfa15),
  (8457, 0x71c1), (8458, 0x71fe), (8459, 0x72b1)]

/-- Lines (pointer, code point) with pointer in [8460, 8648).  encoding_tables/whatwg/index-jis0208.txt:7157-7342 -/
def row45 : List (Nat × Nat) := [
  (8460, 0x72be), (8461, 0x7324), (8462, 0xfa16), (8463, 0x7377), (8464, 0x73bd),
  (8465, 0x73c9), (8466, 0x73d6), (8467, 0x73e3), (8468, 0x73d2), (8469, 0x7407),
  (8470, 0x73f5), (8471, 0x7426), (8472, 0x742a), (8473, 0x7429), (8474, 0x742e),
  (8475, 0x7462), (8476, 0x7489), (8477, 0x749f), (8478, 0x7501), (8479, 0x756f),
  (8480, 0x7682), (8481, 0x769c), (8482, 0x769e), (8483, 0x769b), (8484, 0x76a6),
  (8485, 0xfa17), (8486, 0x7746), (8487, 0x52af), (8488, 0x7821), (8489, 0x784e),
  (8490, 0x7864), (8491, 0x787a), (8492, 0x7930), (8493, 0xfa18), (8494, 0xfa19),
  (8495, 0xfa1a), (8496, 0x7994), (8497, 0xfa1b), (8498, 0x799b), (8499, 0x7ad1),
  (8500, 0x7ae7), (8501, 0xfa1c), (8502, 0x7aeb), (8503, 0x7b9e), (8504, 0xfa1d),
  (8505, 0x7d48), (8506, 0x7d5c), (8507, 0x7db7), (8508, 0x7da0), (8509, 0x7dd6),
  (8510, 0x7e52), (8511, 0x7f47), (8512, 0x7fa1), (8513, 0xfa1e), (8514, 0x8301),
  (8515, 0x8362), (8516, 0x837f), (8517, 0x83c7), (8518, 0x83f6), (8519, 0x8448),
  (8520, 0x84b4), (8521, 0x8553), (8522, 0x8559), (8523, 0x856b), (8524, 0xfa1f),
  (8525, 0x85b0), (8526, 0xfa20), (8527, 0xfa21), (8528, 0x8807), (8529, 0x88f5),
  (8530, 0x8a12), (8531, 0x8a37), (8532, 0x8a79), (8533, 0x8aa7), (8534, 0x8abe),
  (8535, 0x8adf), (8536, 0xfa22), (8537, 0x8af6), (8538, 0x8b53), (8539, 0x8b7f),
  (8540, 0x8cf0), (8541, 0x8cf4), (8542, 0x8d12), (8543, 0x8d76), (8544, 0xfa23),
  (8545, 0x8ecf), (8546, 0xfa24), (8547, 0xfa25), (8548, 0x9067), (8549, 0x90de),
  (8550, 0xfa26), (8551, 0x9115), (8552, 0x9127), (8553, 0x91da), (8554, 0x91d7),
  (8555, 0x91de), (8556, 0x91ed), (8557, 0x91ee), (8558, 0x91e4), (8559, 0x91e5),
  (8560, 0x9206), (8561, 0x9210), (8562, 0x920a), (8563, 0x923a), (8564, 0x9240),
  (8565, 0x923c), (8566, 0x924e), (8567, 0x9259), (8568, 0x9251), (8569, 0x9239),
  (8570, 0x9267), (8571, 0x92a7), (8572, 0x9277), (8573, 0x9278), (8574, 0x92e7),
  (8575, 0x92d7), (8576, 0x92d9), (8577, 0x92d0), (8578, 0xfa27), (8579, 0x92d5),
  (8580, 0x92e0), (8581, 0x92d3), (8582, 0x9325), (8583, 0x9321), (8584, 0x92fb),
  (8585, 0xfa28), (8586, 0x931e), (8587, 0x92ff), (8588, 0x931d), (8589, 0x9302),
  (8590, 0x9370), (8591, 0x9357), (8592, 0x93a4), (8593, 0x93c6), (8594, 0x93de),
  (8595, 0x93f8), (8596, 0x9431), (8597, 0x9445), (8598, 0x9448), (8599, 0x9592),
  (8600, 0xf9dc), (8601, 0xfa29), (8602, 0x969d), (8603, 0x96af), (8604, 0x9733),
  (8605, 0x973b), (8606, 0x9743), (8607, 0x974d), (8608, 0x974f), (8609, 0x9751),
  (8610, 0x9755), (8611, 0x9857), (8612, 0x9865), (8613, 0xfa2a), (8614, 0xfa2b),
  (8615, 0x9927), (8616, 0xfa2c), (8617, 0x999e), (8618, 0x9a4e), (8619, 0x9ad9),
  (8620, 0x9adc), (8621, 0x9b75), (8622, 0x9b72), (8623, 0x9b8f), (8624, 0x9bb1),
  (8625, 0x9bbb), (8626, 0x9c00), (8627, 0x9d70), (8628, 0x9d6b), (8629, 0xfa2d),
  (8630, 0x9e19), (8631, 0x9ed1), (8634, 0x2170), (8635, 0x2171), (8636, 0x2172),
  (8637, 0x2173), (8638, 0x2174), (8639, 0x2175), (8640, 0x2176), (8641, 0x2177),
  (8642, 0x2178), (8643, 0x2179), (8644, 0xffe2), (8645, 0xffe4), (8646, 0xff07), (8647, 0xff02)]

/-- Lines (pointer, code point) with pointer in [8648, 8836).  encoding_tables/whatwg/index-jis0208.txt (no line) -/
def row46 : List (Nat × Nat) := []

/-- Lines (pointer, code point) with pointer in [8836, 9024).  encoding_tables/whatwg/index-jis0208.txt (no line) -/
def row47 : List (Nat × Nat) := []

/-- Lines (pointer, code point) with pointer in [9024, 9212).  encoding_tables/whatwg/index-jis0208.txt (no line) -/
def row48 : List (Nat × Nat) := []

/-- Lines (pointer, code point) with pointer in [9212, 9400).  encoding_tables/whatwg/index-jis0208.txt (no line) -/
def row49 : List (Nat × Nat) := []

/-- Lines (pointer, code point) with pointer in [9400, 9588).  encoding_tables/whatwg/index-jis0208.txt (no line) -/
def row50 : List (Nat × Nat) := []

/-- Lines (pointer, code point) with pointer in [9588, 9776).  encoding_tables/whatwg/index-jis0208.txt (no line) -/
def row51 : List (Nat × Nat) := []

/-- Lines (pointer, code point) with pointer in [9776, 9964).  encoding_tables/whatwg/index-jis0208.txt (no line) -/
def row52 : List (Nat × Nat) := []

/-- Lines (pointer, code point) with pointer in [9964, 10152).  encoding_tables/whatwg/index-jis0208.txt (no line) -/
def row53 : List (Nat × Nat) := []

/-- Lines (pointer, code point) with pointer in [10152, 10340).  encoding_tables/whatwg/index-jis0208.txt (no line) -/
def row54 : List (Nat × Nat) := []

/-- Lines (pointer, code point) with pointer in [10340, 10528).  encoding_tables/whatwg/index-jis0208.txt (no line) -/
def row55 : List (Nat × Nat) := []

/-- Lines (pointer, code point) with pointer in [10528, 10716).  encoding_tables/whatwg/index-jis0208.txt (no line) -/
def row56 : List (Nat × Nat) := []

/-- Lines (pointer, code point) with pointer in [10716, 10904).  encoding_tables/whatwg/index-jis0208.txt:7343-7530 -/
def row57 : List (Nat × Nat) := [
  (10716, 0x2170), (10717, 0x2171), (10718, 0x2172), (10719, 0x2173), (10720, 0x2174),
  (10721, 0x2175), (10722, 0x2176), (10723, 0x2177), (10724, 0x2178), (10725, 0x2179),
  (10726, 0x2160), (10727, 0x2161), (10728, 0x2162), (10729, 0x2163), (10730, 0x2164),
  (10731, 0x2165), (10732, 0x2166), (10733, 0x2167), (10734, 0x2168), (10735, 0x2169),
  (10736, 0xffe2), (10737, 0xffe4), (10738, 0xff07), (10739, 0xff02), (10740, 0x3231),
  (10741, 0x2116), (10742, 0x2121), (10743, 0x2235), (10744, 0x7e8a), (10745, 0x891c),
  (10746, 0x9348), (10747, 0x9288), (10748, 0x84dc), (10749, 0x4fc9), (10750, 0x70bb),
  (10751, 0x6631), (10752, 0x68c8), (10753, 0x92f9), (10754, 0x66fb), (10755, 0x5f45),
  (10756, 0x4e28), (10757, 0x4ee1), (10758, 0x4efc), (10759, 0x4f00), (10760, 0x4f03),
  (10761, 0x4f39), (10762, 0x4f56), (10763, 0x4f92), (10764, 0x4f8a), (10765, 0x4f9a),
  (10766, 0x4f94), (10767, 0x4fcd), (10768, 0x5040), (10769, 0x5022), (10770, 0x4fff),
  (10771, 0x501e), (10772, 0x5046), (10773, 0x5070), (10774, 0x5042), (10775, 0x5094),
  (10776, 0x50f4), (10777, 0x50d8), (10778, 0x514a), (10779, 0x5164), (10780, 0x519d),
  (10781, 0x51be), (10782, 0x51ec), (10783, 0x5215), (10784, 0x529c), (10785, 0x52a6),
  (10786, 0x52c0), (10787, 0x52db), (10788, 0x5300), (10789, 0x5307), (10790, 0x5324),
  (10791, 0x5372), (10792, 0x5393), (10793, 0x53b2), (10794, 0x53dd), (10795, 0xfa0e),
  (10796, 0x549c), (10797, 0x548a), (10798, 0x54a9), (10799, 0x54ff), (10800, 0x5586),
  (10801, 0x5759), (10802, 0x5765), (10803, 0x57ac), (10804, 0x57c8), (10805, 0x57c7),
  (10806, 0xfa0f), (10807, 0xfa10), (10808, 0x589e), (10809, 0x58b2), (10810, 0x590b),
  (10811, 0x5953), (10812, 0x595b), (10813, 0x595d), (10814, 0x5963), (10815, 0x59a4),
  (10816, 0x59ba), (10817, 0x5b56), (10818, 0x5bc0), (10819, 0x752f), (10820, 0x5bd8),
  (10821, 0x5bec), (10822, 0x5c1e), (10823, 0x5ca6), (10824, 0x5cba), (10825, 0x5cf5),
  (10826, 0x5d27), (10827, 0x5d53), (10828, 0xfa11), (10829, 0x5d42), (10830, 0x5d6d),
  (10831, 0x5db8), (10832, 0x5db9), (10833, 0x5dd0), (10834, 0x5f21), (10835, 0x5f34),
  (10836, 0x5f67), (10837, 0x5fb7), (10838, 0x5fde), (10839, 0x605d), (10840, 0x6085),
  (10841, 0x608a), (10842, 0x60de), (10843, 0x60d5), (10844, 0x6120), (10845, 0x60f2),
  (10846, 0x6111), (10847, 0x6137), (10848, 0x6130), (10849, 0x6198), (10850, 0x6213),
  (10851, 0x62a6), (10852, 0x63f5), (10853, 0x6460), (10854, 0x649d), (10855, 0x64ce),
  (10856, 0x654e), (10857, 0x6600), (10858, 0x6615), (10859, 0x663b), (10860, 0x6609),
  (10861, 0x662e), (10862, 0x661e), (10863, 0x6624), (10864, 0x6665), (10865, 0x6657),
  (10866, 0x6659), (10867, 0xfa12), (10868, 0x6673), (10869, 0x6699), (10870, 0x66a0),
  (10871, 0x66b2), (10872, 0x66bf), (10873, 0x66fa), (10874, 0x670e), (10875, 0xf929),
  (10876, 0x6766), (10877, 0x67bb), (10878, 0x6852), (10879, 0x67c0), (10880, 0x6801),
  (10881, 0x6844), (10882, 0x68cf), (10883, 0xfa13), (10884, 0x6968), (10885, 0xfa14),
  (10886, 0x6998), (10887, 0x69e2), (10888, 0x6a30), (10889, 0x6a6b), (10890, 0x6a46),
  (10891, 0x6a73), (10892, 0x6a7e), (10893, 0x6ae2), (10894, 0x6ae4), (10895, 0x6bd6),
  (10896, 0x6c3f), (10897, 0x6c5c), (10898, 0x6c86), (10899, 0x6c6f), (10900, 0x6cda),
  (10901, 0x6d04), (10902, 0x6d87), (10903, 0x6d6f)]

/-- Lines (pointer, code point) with pointer in [10904, 11092).  encoding_tables/whatwg/index-jis0208.txt:7531-7718 -/
def row58 : List (Nat × Nat) := [
  (10904, 0x6d96), (10905, 0x6dac), (10906, 0x6dcf), (10907, 0x6df8), (10908, 0x6df2),
  (10909, 0x6dfc), (10910, 0x6e39), (10911, 0x6e5c), (10912, 0x6e27), (10913, 0x6e3c),
  (10914, 0x6ebf), (10915, 0x6f88), (10916, 0x6fb5), (10917, 0x6ff5), (10918, 0x7005),
  (10919, 0x7007), (10920, 0x7028), (10921, 0x7085), (10922, 0x70ab), (10923, 0x710f),
  (10924, 0x7104), (10925, 0x715c), (10926, 0x7146), (10927, 0x7147), (10928, 0xfa15),
  (10929, 0x71c1), (10930, 0x71fe), (10931, 0x72b1), (10932, 0x72be), (10933, 0x7324),
  (10934, 0xfa16), (10935, 0x7377), (10936, 0x73bd), (10937, 0x73c9), (10938, 0x73d6),
  (10939, 0x73e3), (10940, 0x73d2), (10941, 0x7407), (10942, 0x73f5), (10943, 0x7426),
  (10944, 0x742a), (10945, 0x7429), (10946, 0x742e), (10947, 0x7462), (10948, 0x7489),
  (10949, 0x749f), (10950, 0x7501), (10951, 0x756f), (10952, 0x7682), (10953, 0x769c),
  (10954, 0x769e), (10955, 0x769b), (10956, 0x76a6), (10957, 0xfa17), (10958, 0x7746),
  (10959, 0x52af), (10960, 0x7821), (10961, 0x784e), (10962, 0x7864), (10963, 0x787a),
  (10964, 0x7930), (10965, 0xfa18), (10966, 0xfa19), (10967, 0xfa1a), (10968, 0x7994),
  (10969, 0xfa1b), (10970, 0x799b), (10971, 0x7ad1), (10972, 0x7ae7), (10973, 0xfa1c),
  (10974, 0x7aeb), (10975, 0x7b9e), (10976, 0xfa1d), (10977, 0x7d48), (10978, 0x7d5c),
  (10979, 0x7db7), (10980, 0x7da0), (10981, 0x7dd6), (10982, 0x7e52), (10983, 0x7f47),
  (10984, 0x7fa1), (10985, 0xfa1e), (10986, 0x8301), (10987, 0x8362), (10988, 0x837f),
  (10989, 0x83c7), (10990, 0x83f6), (10991, 0x8448), (10992, 0x84b4), (10993, 0x8553),
  (10994, 0x8559), (10995, 0x856b), (10996, 0xfa1f), (10997, 0x85b0), (10998, 0xfa20),
  (10999, 0xfa21), (11000, 0x8807), (11001, 0x88f5), (11002, 0x8a12), (11003, 0x8a37),
  (11004, 0x8a79), (11005, 0x8aa7), (11006, 0x8abe), (11007, 0x8adf), (11008, 0xfa22),
  (11009, 0x8af6), (11010, 0x8b53), (11011, 0x8b7f), (11012, 0x8cf0), (11013, 0x8cf4),
  (11014, 0x8d12), (11015, 0x8d76), (11016, 0xfa23), (11017, 0x8ecf), (11018, 0xfa24),
  (11019, 0xfa25), (11020, 0x9067), (11021, 0x90de), (11022, 0xfa26), (11023, 0x9115),
  (11024, 0x9127), (11025, 0x91da), (11026, 0x91d7), (11027, 0x91de), (11028, 0x91ed),
  (11029, 0x91ee), (11030, 0x91e4), (11031, 0x91e5), (11032, 0x9206), (11033, 0x9210),
  (11034, 0x920a), (11035, 0x923a), (11036, 0x9240), (11037, 0x923c), (11038, 0x924e),
  (11039, 0x9259), (11040, 0x9251), (11041, 0x9239), (11042, 0x9267), (11043, 0x92a7),
  (11044, 0x9277), (11045, 0x9278), (11046, 0x92e7), (11047, 0x92d7), (11048, 0x92d9),
  (11049, 0x92d0), (11050, 0xfa27), (11051, 0x92d5), (11052, 0x92e0), (11053, 0x92d3),
  (11054, 0x9325), (11055, 0x9321), (11056, 0x92fb), (11057, 0xfa28), (11058, 0x931e),
  (11059, 0x92ff), (11060, 0x931d), (11061, 0x9302), (11062, 0x9370), (11063, 0x9357),
  (11064, 0x93a4), (11065, 0x93c6), (11066, 0x93de), (11067, 0x93f8), (11068, 0x9431),
  (11069, 0x9445), (11070, 0x9448), (11071, 0x9592), (11072, 0xf9dc), (11073, 0xfa29),
  (11074, 0x969d), (11075, 0x96af), (11076, 0x9733), (11077, 0x973b), (11078, 0x9743),
  (11079, 0x974d), (11080, 0x974f), (11081, 0x9751), (11082, 0x9755), (11083, 0x9857),
  (11084, 0x9865), (11085, 0xfa2a), (11086, 0xfa2b), (11087, 0x9927), (11088, 0xfa2c),
  (11089, 0x999e), (11090, 0x9a4e), (11091, 0x9ad9)]

/-- Lines (pointer, code point) with pointer in [11092, 11280).  encoding_tables/whatwg/index-jis0208.txt:7719-7730 -/
def row59 : List (Nat × Nat) := [
  (11092, 0x9adc), (11093, 0x9b75), (11094, 0x9b72), (11095, 0x9b8f), (11096, 0x9bb1),
  (11097, 0x9bbb), (11098, 0x9c00), (11099, 0x9d70), (11100, 0x9d6b), (11101, 0xfa2d),
  (11102, 0x9e19), (11103, 0x9ed1)]

/-- All lines of the index, grouped by pointer div 188.  encoding_tables/whatwg/index-jis0208.txt:7-7730 -/
def rows : List (List (Nat × Nat)) := [
  row0, row1, row2, row3, row4, row5, row6, row7, row8, row9, row10, row11, row12, row13,
  row14, row15, row16, row17, row18, row19, row20, row21, row22, row23, row24, row25, row26,
  row27, row28, row29, row30, row31, row32, row33, row34, row35, row36, row37, row38, row39,
  row40, row41, row42, row43, row44, row45, row46, row47, row48, row49, row50, row51, row52,
  row53, row54, row55, row56, row57, row58, row59]

end Verif.Spec.Published.Jis0208
