import Verif.Text

/-! Generated by tools/gen_files.py: verbatim copies of parts of files of /repo. -/

namespace Verif.Files.Big5

/-- encoding_tables/whatwg/index-big5.txt:1-6 -/
noncomputable def index0 : List Text := lines! r#"# For details on index index-big5.txt see the Encoding Standard
# https://encoding.spec.whatwg.org/
#
# Identifier: 8dfc771062e7be0810919082c2c06baa2236147909e0ecc235b1cb9ad782ac82
# Date: 2018-01-06

"#

/-- encoding_tables/whatwg/index-big5.txt (no line) -/
noncomputable def index1 : List Text := []

/-- encoding_tables/whatwg/index-big5.txt (no line) -/
noncomputable def index2 : List Text := []

/-- encoding_tables/whatwg/index-big5.txt (no line) -/
noncomputable def index3 : List Text := []

/-- encoding_tables/whatwg/index-big5.txt (no line) -/
noncomputable def index4 : List Text := []

/-- encoding_tables/whatwg/index-big5.txt (no line) -/
noncomputable def index5 : List Text := []

/-- encoding_tables/whatwg/index-big5.txt:7-131 -/
noncomputable def index6 : List Text := lines! r#"  942	0x43F0	䏰 (<CJK Ideograph Extension A>)
  943	0x4C32	䰲 (<CJK Ideograph Extension A>)
  944	0x4603	䘃 (<CJK Ideograph Extension A>)
  945	0x45A6	䖦 (<CJK Ideograph Extension A>)
  946	0x4578	䕸 (<CJK Ideograph Extension A>)
  947	0x27267	𧉧 (<CJK Ideograph Extension B>)
  948	0x4D77	䵷 (<CJK Ideograph Extension A>)
  949	0x45B3	䖳 (<CJK Ideograph Extension A>)
  950	0x27CB1	𧲱 (<CJK Ideograph Extension B>)
  951	0x4CE2	䳢 (<CJK Ideograph Extension A>)
  952	0x27CC5	𧳅 (<CJK Ideograph Extension B>)
  953	0x3B95	㮕 (<CJK Ideograph Extension A>)
  954	0x4736	䜶 (<CJK Ideograph Extension A>)
  955	0x4744	䝄 (<CJK Ideograph Extension A>)
  956	0x4C47	䱇 (<CJK Ideograph Extension A>)
  957	0x4C40	䱀 (<CJK Ideograph Extension A>)
  958	0x242BF	𤊿 (<CJK Ideograph Extension B>)
  959	0x23617	𣘗 (<CJK Ideograph Extension B>)
  960	0x27352	𧍒 (<CJK Ideograph Extension B>)
  961	0x26E8B	𦺋 (<CJK Ideograph Extension B>)
  962	0x270D2	𧃒 (<CJK Ideograph Extension B>)
  963	0x4C57	䱗 (<CJK Ideograph Extension A>)
  964	0x2A351	𪍑 (<CJK Ideograph Extension B>)
  965	0x474F	䝏 (<CJK Ideograph Extension A>)
  966	0x45DA	䗚 (<CJK Ideograph Extension A>)
  967	0x4C85	䲅 (<CJK Ideograph Extension A>)
  968	0x27C6C	𧱬 (<CJK Ideograph Extension B>)
  969	0x4D07	䴇 (<CJK Ideograph Extension A>)
  970	0x4AA4	䪤 (<CJK Ideograph Extension A>)
  971	0x46A1	䚡 (<CJK Ideograph Extension A>)
  972	0x26B23	𦬣 (<CJK Ideograph Extension B>)
  973	0x7225	爥 (<CJK Ideograph>)
  974	0x25A54	𥩔 (<CJK Ideograph Extension B>)
  975	0x21A63	𡩣 (<CJK Ideograph Extension B>)
  976	0x23E06	𣸆 (<CJK Ideograph Extension B>)
  977	0x23F61	𣽡 (<CJK Ideograph Extension B>)
  978	0x664D	晍 (<CJK Ideograph>)
  979	0x56FB	囻 (<CJK Ideograph>)
  981	0x7D95	綕 (<CJK Ideograph>)
  982	0x591D	夝 (<CJK Ideograph>)
  983	0x28BB9	𨮹 (<CJK Ideograph Extension B>)
  984	0x3DF4	㷴 (<CJK Ideograph Extension A>)
  985	0x9734	霴 (<CJK Ideograph>)
  986	0x27BEF	𧯯 (<CJK Ideograph Extension B>)
  987	0x5BDB	寛 (<CJK Ideograph>)
  988	0x21D5E	𡵞 (<CJK Ideograph Extension B>)
  989	0x5AA4	媤 (<CJK Ideograph>)
  990	0x3625	㘥 (<CJK Ideograph Extension A>)
  991	0x29EB0	𩺰 (<CJK Ideograph Extension B>)
  992	0x5AD1	嫑 (<CJK Ideograph>)
  993	0x5BB7	宷 (<CJK Ideograph>)
  994	0x5CFC	峼 (<CJK Ideograph>)
  995	0x676E	杮 (<CJK Ideograph>)
  996	0x8593	薓 (<CJK Ideograph>)
  997	0x29945	𩥅 (<CJK Ideograph Extension B>)
  998	0x7461	瑡 (<CJK Ideograph>)
  999	0x749D	璝 (<CJK Ideograph>)
 1000	0x3875	㡵 (<CJK Ideograph Extension A>)
 1001	0x21D53	𡵓 (<CJK Ideograph Extension B>)
 1002	0x2369E	𣚞 (<CJK Ideograph Extension B>)
 1003	0x26021	𦀡 (<CJK Ideograph Extension B>)
 1004	0x3EEC	㻬 (<CJK Ideograph Extension A>)
 1005	0x258DE	𥣞 (<CJK Ideograph Extension B>)
 1006	0x3AF5	㫵 (<CJK Ideograph Extension A>)
 1007	0x7AFC	竼 (<CJK Ideograph>)
 1008	0x9F97	龗 (<CJK Ideograph>)
 1009	0x24161	𤅡 (<CJK Ideograph Extension B>)
 1010	0x2890D	𨤍 (<CJK Ideograph Extension B>)
 1011	0x231EA	𣇪 (<CJK Ideograph Extension B>)
 1012	0x20A8A	𠪊 (<CJK Ideograph Extension B>)
 1013	0x2325E	𣉞 (<CJK Ideograph Extension B>)
 1014	0x430A	䌊 (<CJK Ideograph Extension A>)
 1015	0x8484	蒄 (<CJK Ideograph>)
 1016	0x9F96	龖 (<CJK Ideograph>)
 1017	0x942F	鐯 (<CJK Ideograph>)
 1018	0x4930	䤰 (<CJK Ideograph Extension A>)
 1019	0x8613	蘓 (<CJK Ideograph>)
 1020	0x5896	墖 (<CJK Ideograph>)
 1021	0x974A	靊 (<CJK Ideograph>)
 1022	0x9218	鈘 (<CJK Ideograph>)
 1023	0x79D0	秐 (<CJK Ideograph>)
 1024	0x7A32	稲 (<CJK Ideograph>)
 1025	0x6660	晠 (<CJK Ideograph>)
 1026	0x6A29	権 (<CJK Ideograph>)
 1027	0x889D	袝 (<CJK Ideograph>)
 1028	0x744C	瑌 (<CJK Ideograph>)
 1029	0x7BC5	篅 (<CJK Ideograph>)
 1030	0x6782	枂 (<CJK Ideograph>)
 1031	0x7A2C	稬 (<CJK Ideograph>)
 1032	0x524F	剏 (<CJK Ideograph>)
 1033	0x9046	遆 (<CJK Ideograph>)
 1034	0x34E6	㓦 (<CJK Ideograph Extension A>)
 1035	0x73C4	珄 (<CJK Ideograph>)
 1036	0x25DB9	𥶹 (<CJK Ideograph Extension B>)
 1037	0x74C6	瓆 (<CJK Ideograph>)
 1038	0x9FC7	鿇 (<CJK Ideograph>)
 1039	0x57B3	垳 (<CJK Ideograph>)
 1040	0x492F	䤯 (<CJK Ideograph Extension A>)
 1041	0x544C	呌 (<CJK Ideograph>)
 1042	0x4131	䄱 (<CJK Ideograph Extension A>)
 1043	0x2368E	𣚎 (<CJK Ideograph Extension B>)
 1044	0x5818	堘 (<CJK Ideograph>)
 1045	0x7A72	穲 (<CJK Ideograph>)
 1046	0x27B65	𧭥 (<CJK Ideograph Extension B>)
 1047	0x8B8F	讏 (<CJK Ideograph>)
 1048	0x46AE	䚮 (<CJK Ideograph Extension A>)
 1049	0x26E88	𦺈 (<CJK Ideograph Extension B>)
 1050	0x4181	䆁 (<CJK Ideograph Extension A>)
 1051	0x25D99	𥶙 (<CJK Ideograph Extension B>)
 1052	0x7BAE	箮 (<CJK Ideograph>)
 1053	0x224BC	𢒼 (<CJK Ideograph Extension B>)
 1054	0x9FC8	鿈 (<CJK Ideograph>)
 1055	0x224C1	𢓁 (<CJK Ideograph Extension B>)
 1056	0x224C9	𢓉 (<CJK Ideograph Extension B>)
 1057	0x224CC	𢓌 (<CJK Ideograph Extension B>)
 1058	0x9FC9	鿉 (<CJK Ideograph>)
 1059	0x8504	蔄 (<CJK Ideograph>)
 1060	0x235BB	𣖻 (<CJK Ideograph Extension B>)
 1061	0x40B4	䂴 (<CJK Ideograph Extension A>)
 1062	0x9FCA	鿊 (<CJK Ideograph>)
 1063	0x44E1	䓡 (<CJK Ideograph Extension A>)
 1064	0x2ADFF	𪷿 (<CJK Ideograph Extension C>)
 1065	0x62C1	拁 (<CJK Ideograph>)
 1066	0x706E	灮 (<CJK Ideograph>)
 1067	0x9FCB	鿋 (<CJK Ideograph>)
"#

/-- encoding_tables/whatwg/index-big5.txt:132-200 -/
noncomputable def index7 : List Text := lines! r#" 1099	0x31C0	㇀ (CJK STROKE T)
 1100	0x31C1	㇁ (CJK STROKE WG)
 1101	0x31C2	㇂ (CJK STROKE XG)
 1102	0x31C3	㇃ (CJK STROKE BXG)
 1103	0x31C4	㇄ (CJK STROKE SW)
 1104	0x2010C	𠄌 (<CJK Ideograph Extension B>)
 1105	0x31C5	㇅ (CJK STROKE HZZ)
 1106	0x200D1	𠃑 (<CJK Ideograph Extension B>)
 1107	0x200CD	𠃍 (<CJK Ideograph Extension B>)
 1108	0x31C6	㇆ (CJK STROKE HZG)
 1109	0x31C7	㇇ (CJK STROKE HP)
 1110	0x200CB	𠃋 (<CJK Ideograph Extension B>)
 1111	0x21FE8	𡿨 (<CJK Ideograph Extension B>)
 1112	0x31C8	㇈ (CJK STROKE HZWG)
 1113	0x200CA	𠃊 (<CJK Ideograph Extension B>)
 1114	0x31C9	㇉ (CJK STROKE SZWG)
 1115	0x31CA	㇊ (CJK STROKE HZT)
 1116	0x31CB	㇋ (CJK STROKE HZZP)
 1117	0x31CC	㇌ (CJK STROKE HPWG)
 1118	0x2010E	𠄎 (<CJK Ideograph Extension B>)
 1119	0x31CD	㇍ (CJK STROKE HZW)
 1120	0x31CE	㇎ (CJK STROKE HZZZ)
 1121	0x0100	Ā (LATIN CAPITAL LETTER A WITH MACRON)
 1122	0x00C1	Á (LATIN CAPITAL LETTER A WITH ACUTE)
 1123	0x01CD	Ǎ (LATIN CAPITAL LETTER A WITH CARON)
 1124	0x00C0	À (LATIN CAPITAL LETTER A WITH GRAVE)
 1125	0x0112	Ē (LATIN CAPITAL LETTER E WITH MACRON)
 1126	0x00C9	É (LATIN CAPITAL LETTER E WITH ACUTE)
 1127	0x011A	Ě (LATIN CAPITAL LETTER E WITH CARON)
 1128	0x00C8	È (LATIN CAPITAL LETTER E WITH GRAVE)
 1129	0x014C	Ō (LATIN CAPITAL LETTER O WITH MACRON)
 1130	0x00D3	Ó (LATIN CAPITAL LETTER O WITH ACUTE)
 1131	0x01D1	Ǒ (LATIN CAPITAL LETTER O WITH CARON)
 1132	0x00D2	Ò (LATIN CAPITAL LETTER O WITH GRAVE)
 1134	0x1EBE	Ế (LATIN CAPITAL LETTER E WITH CIRCUMFLEX AND ACUTE)
 1136	0x1EC0	Ề (LATIN CAPITAL LETTER E WITH CIRCUMFLEX AND GRAVE)
 1137	0x00CA	Ê (LATIN CAPITAL LETTER E WITH CIRCUMFLEX)
 1138	0x0101	ā (LATIN SMALL LETTER A WITH MACRON)
 1139	0x00E1	á (LATIN SMALL LETTER A WITH ACUTE)
 1140	0x01CE	ǎ (LATIN SMALL LETTER A WITH CARON)
 1141	0x00E0	à (LATIN SMALL LETTER A WITH GRAVE)
 1142	0x0251	ɑ (LATIN SMALL LETTER ALPHA)
 1143	0x0113	ē (LATIN SMALL LETTER E WITH MACRON)
 1144	0x00E9	é (LATIN SMALL LETTER E WITH ACUTE)
 1145	0x011B	ě (LATIN SMALL LETTER E WITH CARON)
 1146	0x00E8	è (LATIN SMALL LETTER E WITH GRAVE)
 1147	0x012B	ī (LATIN SMALL LETTER I WITH MACRON)
 1148	0x00ED	í (LATIN SMALL LETTER I WITH ACUTE)
 1149	0x01D0	ǐ (LATIN SMALL LETTER I WITH CARON)
 1150	0x00EC	ì (LATIN SMALL LETTER I WITH GRAVE)
 1151	0x014D	ō (LATIN SMALL LETTER O WITH MACRON)
 1152	0x00F3	ó (LATIN SMALL LETTER O WITH ACUTE)
 1153	0x01D2	ǒ (LATIN SMALL LETTER O WITH CARON)
 1154	0x00F2	ò (LATIN SMALL LETTER O WITH GRAVE)
 1155	0x016B	ū (LATIN SMALL LETTER U WITH MACRON)
 1156	0x00FA	ú (LATIN SMALL LETTER U WITH ACUTE)
 1157	0x01D4	ǔ (LATIN SMALL LETTER U WITH CARON)
 1158	0x00F9	ù (LATIN SMALL LETTER U WITH GRAVE)
 1159	0x01D6	ǖ (LATIN SMALL LETTER U WITH DIAERESIS AND MACRON)
 1160	0x01D8	ǘ (LATIN SMALL LETTER U WITH DIAERESIS AND ACUTE)
 1161	0x01DA	ǚ (LATIN SMALL LETTER U WITH DIAERESIS AND CARON)
 1162	0x01DC	ǜ (LATIN SMALL LETTER U WITH DIAERESIS AND GRAVE)
 1163	0x00FC	ü (LATIN SMALL LETTER U WITH DIAERESIS)
 1165	0x1EBF	ế (LATIN SMALL LETTER E WITH CIRCUMFLEX AND ACUTE)
 1167	0x1EC1	ề (LATIN SMALL LETTER E WITH CIRCUMFLEX AND GRAVE)
 1168	0x00EA	ê (LATIN SMALL LETTER E WITH CIRCUMFLEX)
 1169	0x0261	ɡ (LATIN SMALL LETTER SCRIPT G)
 1170	0x23DA	⏚ (EARTH GROUND)
 1171	0x23DB	⏛ (FUSE)
"#

/-- encoding_tables/whatwg/index-big5.txt:201-343 -/
noncomputable def index8 : List Text := lines! r#" 1256	0x2A3A9	𪎩 (<CJK Ideograph Extension B>)
 1257	0x21145	𡅅 (<CJK Ideograph Extension B>)
 1259	0x650A	攊 (<CJK Ideograph>)
 1262	0x4E3D	丽 (<CJK Ideograph>)
 1263	0x6EDD	滝 (<CJK Ideograph>)
 1264	0x9D4E	鵎 (<CJK Ideograph>)
 1265	0x91DF	釟 (<CJK Ideograph>)
 1268	0x27735	𧜵 (<CJK Ideograph Extension B>)
 1269	0x6491	撑 (<CJK Ideograph>)
 1270	0x4F1A	会 (<CJK Ideograph>)
 1271	0x4F28	伨 (<CJK Ideograph>)
 1272	0x4FA8	侨 (<CJK Ideograph>)
 1273	0x5156	兖 (<CJK Ideograph>)
 1274	0x5174	兴 (<CJK Ideograph>)
 1275	0x519C	农 (<CJK Ideograph>)
 1276	0x51E4	凤 (<CJK Ideograph>)
 1277	0x52A1	务 (<CJK Ideograph>)
 1278	0x52A8	动 (<CJK Ideograph>)
 1279	0x533B	医 (<CJK Ideograph>)
 1280	0x534E	华 (<CJK Ideograph>)
 1281	0x53D1	发 (<CJK Ideograph>)
 1282	0x53D8	变 (<CJK Ideograph>)
 1283	0x56E2	团 (<CJK Ideograph>)
 1284	0x58F0	声 (<CJK Ideograph>)
 1285	0x5904	处 (<CJK Ideograph>)
 1286	0x5907	备 (<CJK Ideograph>)
 1287	0x5932	夲 (<CJK Ideograph>)
 1288	0x5934	头 (<CJK Ideograph>)
 1289	0x5B66	学 (<CJK Ideograph>)
 1290	0x5B9E	实 (<CJK Ideograph>)
 1291	0x5B9F	実 (<CJK Ideograph>)
 1292	0x5C9A	岚 (<CJK Ideograph>)
 1293	0x5E86	庆 (<CJK Ideograph>)
 1294	0x603B	总 (<CJK Ideograph>)
 1295	0x6589	斉 (<CJK Ideograph>)
 1296	0x67FE	柾 (<CJK Ideograph>)
 1297	0x6804	栄 (<CJK Ideograph>)
 1298	0x6865	桥 (<CJK Ideograph>)
 1299	0x6D4E	济 (<CJK Ideograph>)
 1300	0x70BC	炼 (<CJK Ideograph>)
 1301	0x7535	电 (<CJK Ideograph>)
 1302	0x7EA4	纤 (<CJK Ideograph>)
 1303	0x7EAC	纬 (<CJK Ideograph>)
 1304	0x7EBA	纺 (<CJK Ideograph>)
 1305	0x7EC7	织 (<CJK Ideograph>)
 1306	0x7ECF	经 (<CJK Ideograph>)
 1307	0x7EDF	统 (<CJK Ideograph>)
 1308	0x7F06	缆 (<CJK Ideograph>)
 1309	0x7F37	缷 (<CJK Ideograph>)
 1310	0x827A	艺 (<CJK Ideograph>)
 1311	0x82CF	苏 (<CJK Ideograph>)
 1312	0x836F	药 (<CJK Ideograph>)
 1313	0x89C6	视 (<CJK Ideograph>)
 1314	0x8BBE	设 (<CJK Ideograph>)
 1315	0x8BE2	询 (<CJK Ideograph>)
 1316	0x8F66	车 (<CJK Ideograph>)
 1317	0x8F67	轧 (<CJK Ideograph>)
 1318	0x8F6E	轮 (<CJK Ideograph>)
 1319	0x7411	琑 (<CJK Ideograph>)
 1320	0x7CFC	糼 (<CJK Ideograph>)
 1321	0x7DCD	緍 (<CJK Ideograph>)
 1322	0x6946	楆 (<CJK Ideograph>)
 1323	0x7AC9	竉 (<CJK Ideograph>)
 1324	0x5227	刧 (<CJK Ideograph>)
 1329	0x918C	醌 (<CJK Ideograph>)
 1330	0x78B8	碸 (<CJK Ideograph>)
 1331	0x915E	酞 (<CJK Ideograph>)
 1332	0x80BC	肼 (<CJK Ideograph>)
 1334	0x8D0B	贋 (<CJK Ideograph>)
 1335	0x80F6	胶 (<CJK Ideograph>)
 1336	0x209E7	𠧧 (<CJK Ideograph Extension B>)
 1339	0x809F	肟 (<CJK Ideograph>)
 1340	0x9EC7	黇 (<CJK Ideograph>)
 1341	0x4CCD	䳍 (<CJK Ideograph Extension A>)
 1342	0x9DC9	鷉 (<CJK Ideograph>)
 1343	0x9E0C	鸌 (<CJK Ideograph>)
 1344	0x4C3E	䰾 (<CJK Ideograph Extension A>)
 1345	0x29DF6	𩷶 (<CJK Ideograph Extension B>)
 1346	0x2700E	𧀎 (<CJK Ideograph Extension B>)
 1347	0x9E0A	鸊 (<CJK Ideograph>)
 1348	0x2A133	𪄳 (<CJK Ideograph Extension B>)
 1349	0x35C1	㗁 (<CJK Ideograph Extension A>)
 1351	0x6E9A	溚 (<CJK Ideograph>)
 1352	0x823E	舾 (<CJK Ideograph>)
 1353	0x7519	甙 (<CJK Ideograph>)
 1355	0x4911	䤑 (<CJK Ideograph Extension A>)
 1356	0x9A6C	马 (<CJK Ideograph>)
 1357	0x9A8F	骏 (<CJK Ideograph>)
 1358	0x9F99	龙 (<CJK Ideograph>)
 1359	0x7987	禇 (<CJK Ideograph>)
 1360	0x2846C	𨑬 (<CJK Ideograph Extension B>)
 1361	0x21DCA	𡷊 (<CJK Ideograph Extension B>)
 1362	0x205D0	𠗐 (<CJK Ideograph Extension B>)
 1363	0x22AE6	𢫦 (<CJK Ideograph Extension B>)
 1364	0x4E24	两 (<CJK Ideograph>)
 1365	0x4E81	亁 (<CJK Ideograph>)
 1366	0x4E80	亀 (<CJK Ideograph>)
 1367	0x4E87	亇 (<CJK Ideograph>)
 1368	0x4EBF	亿 (<CJK Ideograph>)
 1369	0x4EEB	仫 (<CJK Ideograph>)
 1370	0x4F37	伷 (<CJK Ideograph>)
 1371	0x344C	㑌 (<CJK Ideograph Extension A>)
 1372	0x4FBD	侽 (<CJK Ideograph>)
 1373	0x3E48	㹈 (<CJK Ideograph Extension A>)
 1374	0x5003	倃 (<CJK Ideograph>)
 1375	0x5088	傈 (<CJK Ideograph>)
 1376	0x347D	㑽 (<CJK Ideograph Extension A>)
 1377	0x3493	㒓 (<CJK Ideograph Extension A>)
 1378	0x34A5	㒥 (<CJK Ideograph Extension A>)
 1379	0x5186	円 (<CJK Ideograph>)
 1380	0x5905	夅 (<CJK Ideograph>)
 1381	0x51DB	凛 (<CJK Ideograph>)
 1382	0x51FC	凼 (<CJK Ideograph>)
 1383	0x5205	刅 (<CJK Ideograph>)
 1384	0x4E89	争 (<CJK Ideograph>)
 1385	0x5279	剹 (<CJK Ideograph>)
 1386	0x5290	劐 (<CJK Ideograph>)
 1387	0x5327	匧 (<CJK Ideograph>)
 1388	0x35C7	㗇 (<CJK Ideograph Extension A>)
 1389	0x53A9	厩 (<CJK Ideograph>)
 1390	0x3551	㕑 (<CJK Ideograph Extension A>)
 1391	0x53B0	厰 (<CJK Ideograph>)
 1392	0x3553	㕓 (<CJK Ideograph Extension A>)
 1393	0x53C2	参 (<CJK Ideograph>)
 1394	0x5423	吣 (<CJK Ideograph>)
 1395	0x356D	㕭 (<CJK Ideograph Extension A>)
 1396	0x3572	㕲 (<CJK Ideograph Extension A>)
 1397	0x3681	㚁 (<CJK Ideograph Extension A>)
 1398	0x5493	咓 (<CJK Ideograph>)
 1399	0x54A3	咣 (<CJK Ideograph>)
 1400	0x54B4	咴 (<CJK Ideograph>)
 1401	0x54B9	咹 (<CJK Ideograph>)
 1402	0x54D0	哐 (<CJK Ideograph>)
 1403	0x54EF	哯 (<CJK Ideograph>)
 1404	0x5518	唘 (<CJK Ideograph>)
 1405	0x5523	唣 (<CJK Ideograph>)
 1406	0x5528	唨 (<CJK Ideograph>)
 1407	0x3598	㖘 (<CJK Ideograph Extension A>)
 1408	0x553F	唿 (<CJK Ideograph>)
 1409	0x35A5	㖥 (<CJK Ideograph Extension A>)
 1410	0x35BF	㖿 (<CJK Ideograph Extension A>)
 1411	0x55D7	嗗 (<CJK Ideograph>)
 1412	0x35C5	㗅 (<CJK Ideograph Extension A>)
"#

/-- encoding_tables/whatwg/index-big5.txt:344-489 -/
noncomputable def index9 : List Text := lines! r#" 1413	0x27D84	𧶄 (<CJK Ideograph Extension B>)
 1414	0x5525	唥 (<CJK Ideograph>)
 1416	0x20C42	𠱂 (<CJK Ideograph Extension B>)
 1417	0x20D15	𠴕 (<CJK Ideograph Extension B>)
 1418	0x2512B	𥄫 (<CJK Ideograph Extension B>)
 1419	0x5590	喐 (<CJK Ideograph>)
 1420	0x22CC6	𢳆 (<CJK Ideograph Extension B>)
 1421	0x39EC	㧬 (<CJK Ideograph Extension A>)
 1422	0x20341	𠍁 (<CJK Ideograph Extension B>)
 1423	0x8E46	蹆 (<CJK Ideograph>)
 1424	0x24DB8	𤶸 (<CJK Ideograph Extension B>)
 1425	0x294E5	𩓥 (<CJK Ideograph Extension B>)
 1426	0x4053	䁓 (<CJK Ideograph Extension A>)
 1427	0x280BE	𨂾 (<CJK Ideograph Extension B>)
 1428	0x777A	睺 (<CJK Ideograph>)
 1429	0x22C38	𢰸 (<CJK Ideograph Extension B>)
 1430	0x3A34	㨴 (<CJK Ideograph Extension A>)
 1431	0x47D5	䟕 (<CJK Ideograph Extension A>)
 1432	0x2815D	𨅝 (<CJK Ideograph Extension B>)
 1433	0x269F2	𦧲 (<CJK Ideograph Extension B>)
 1434	0x24DEA	𤷪 (<CJK Ideograph Extension B>)
 1435	0x64DD	擝 (<CJK Ideograph>)
 1436	0x20D7C	𠵼 (<CJK Ideograph Extension B>)
 1437	0x20FB4	𠾴 (<CJK Ideograph Extension B>)
 1438	0x20CD5	𠳕 (<CJK Ideograph Extension B>)
 1439	0x210F4	𡃴 (<CJK Ideograph Extension B>)
 1440	0x648D	撍 (<CJK Ideograph>)
 1441	0x8E7E	蹾 (<CJK Ideograph>)
 1442	0x20E96	𠺖 (<CJK Ideograph Extension B>)
 1443	0x20C0B	𠰋 (<CJK Ideograph Extension B>)
 1444	0x20F64	𠽤 (<CJK Ideograph Extension B>)
 1445	0x22CA9	𢲩 (<CJK Ideograph Extension B>)
 1446	0x28256	𨉖 (<CJK Ideograph Extension B>)
 1447	0x244D3	𤓓 (<CJK Ideograph Extension B>)
 1449	0x20D46	𠵆 (<CJK Ideograph Extension B>)
 1450	0x29A4D	𩩍 (<CJK Ideograph Extension B>)
 1451	0x280E9	𨃩 (<CJK Ideograph Extension B>)
 1452	0x47F4	䟴 (<CJK Ideograph Extension A>)
 1453	0x24EA7	𤺧 (<CJK Ideograph Extension B>)
 1454	0x22CC2	𢳂 (<CJK Ideograph Extension B>)
 1455	0x9AB2	骲 (<CJK Ideograph>)
 1456	0x3A67	㩧 (<CJK Ideograph Extension A>)
 1457	0x295F4	𩗴 (<CJK Ideograph Extension B>)
 1458	0x3FED	㿭 (<CJK Ideograph Extension A>)
 1459	0x3506	㔆 (<CJK Ideograph Extension A>)
 1460	0x252C7	𥋇 (<CJK Ideograph Extension B>)
 1461	0x297D4	𩟔 (<CJK Ideograph Extension B>)
 1462	0x278C8	𧣈 (<CJK Ideograph Extension B>)
 1463	0x22D44	𢵄 (<CJK Ideograph Extension B>)
 1464	0x9D6E	鵮 (<CJK Ideograph>)
 1465	0x9815	頕 (<CJK Ideograph>)
 1467	0x43D9	䏙 (<CJK Ideograph Extension A>)
 1468	0x260A5	𦂥 (<CJK Ideograph Extension B>)
 1469	0x64B4	撴 (<CJK Ideograph>)
 1470	0x54E3	哣 (<CJK Ideograph>)
 1471	0x22D4C	𢵌 (<CJK Ideograph Extension B>)
 1472	0x22BCA	𢯊 (<CJK Ideograph Extension B>)
 1473	0x21077	𡁷 (<CJK Ideograph Extension B>)
 1474	0x39FB	㧻 (<CJK Ideograph Extension A>)
 1475	0x2106F	𡁯 (<CJK Ideograph Extension B>)
 1476	0x266DA	𦛚 (<CJK Ideograph Extension B>)
 1477	0x26716	𦜖 (<CJK Ideograph Extension B>)
 1478	0x279A0	𧦠 (<CJK Ideograph Extension B>)
 1479	0x64EA	擪 (<CJK Ideograph>)
 1480	0x25052	𥁒 (<CJK Ideograph Extension B>)
 1481	0x20C43	𠱃 (<CJK Ideograph Extension B>)
 1482	0x8E68	蹨 (<CJK Ideograph>)
 1483	0x221A1	𢆡 (<CJK Ideograph Extension B>)
 1484	0x28B4C	𨭌 (<CJK Ideograph Extension B>)
 1485	0x20731	𠜱 (<CJK Ideograph Extension B>)
 1487	0x480B	䠋 (<CJK Ideograph Extension A>)
 1488	0x201A9	𠆩 (<CJK Ideograph Extension B>)
 1489	0x3FFA	㿺 (<CJK Ideograph Extension A>)
 1490	0x5873	塳 (<CJK Ideograph>)
 1491	0x22D8D	𢶍 (<CJK Ideograph Extension B>)
 1493	0x245C8	𤗈 (<CJK Ideograph Extension B>)
 1494	0x204FC	𠓼 (<CJK Ideograph Extension B>)
 1495	0x26097	𦂗 (<CJK Ideograph Extension B>)
 1496	0x20F4C	𠽌 (<CJK Ideograph Extension B>)
 1497	0x20D96	𠶖 (<CJK Ideograph Extension B>)
 1498	0x5579	啹 (<CJK Ideograph>)
 1499	0x40BB	䂻 (<CJK Ideograph Extension A>)
 1500	0x43BA	䎺 (<CJK Ideograph Extension A>)
 1502	0x4AB4	䪴 (<CJK Ideograph Extension A>)
 1503	0x22A66	𢩦 (<CJK Ideograph Extension B>)
 1504	0x2109D	𡂝 (<CJK Ideograph Extension B>)
 1505	0x81AA	膪 (<CJK Ideograph>)
 1506	0x98F5	飵 (<CJK Ideograph>)
 1507	0x20D9C	𠶜 (<CJK Ideograph Extension B>)
 1508	0x6379	捹 (<CJK Ideograph>)
 1509	0x39FE	㧾 (<CJK Ideograph Extension A>)
 1510	0x22775	𢝵 (<CJK Ideograph Extension B>)
 1511	0x8DC0	跀 (<CJK Ideograph>)
 1512	0x56A1	嚡 (<CJK Ideograph>)
 1513	0x647C	摼 (<CJK Ideograph>)
 1514	0x3E43	㹃 (<CJK Ideograph Extension A>)
 1516	0x2A601	𪘁 (<CJK Ideograph Extension B>)
 1517	0x20E09	𠸉 (<CJK Ideograph Extension B>)
 1518	0x22ACF	𢫏 (<CJK Ideograph Extension B>)
 1519	0x22CC9	𢳉 (<CJK Ideograph Extension B>)
 1521	0x210C8	𡃈 (<CJK Ideograph Extension B>)
 1522	0x239C2	𣧂 (<CJK Ideograph Extension B>)
 1523	0x3992	㦒 (<CJK Ideograph Extension A>)
 1524	0x3A06	㨆 (<CJK Ideograph Extension A>)
 1525	0x2829B	𨊛 (<CJK Ideograph Extension B>)
 1526	0x3578	㕸 (<CJK Ideograph Extension A>)
 1527	0x25E49	𥹉 (<CJK Ideograph Extension B>)
 1528	0x220C7	𢃇 (<CJK Ideograph Extension B>)
 1529	0x5652	噒 (<CJK Ideograph>)
 1530	0x20F31	𠼱 (<CJK Ideograph Extension B>)
 1531	0x22CB2	𢲲 (<CJK Ideograph Extension B>)
 1532	0x29720	𩜠 (<CJK Ideograph Extension B>)
 1533	0x34BC	㒼 (<CJK Ideograph Extension A>)
 1534	0x6C3D	氽 (<CJK Ideograph>)
 1535	0x24E3B	𤸻 (<CJK Ideograph Extension B>)
 1538	0x27574	𧕴 (<CJK Ideograph Extension B>)
 1539	0x22E8B	𢺋 (<CJK Ideograph Extension B>)
 1540	0x22208	𢈈 (<CJK Ideograph Extension B>)
 1541	0x2A65B	𪙛 (<CJK Ideograph Extension B>)
 1542	0x28CCD	𨳍 (<CJK Ideograph Extension B>)
 1543	0x20E7A	𠹺 (<CJK Ideograph Extension B>)
 1544	0x20C34	𠰴 (<CJK Ideograph Extension B>)
 1545	0x2681C	𦠜 (<CJK Ideograph Extension B>)
 1546	0x7F93	羓 (<CJK Ideograph>)
 1547	0x210CF	𡃏 (<CJK Ideograph Extension B>)
 1548	0x22803	𢠃 (<CJK Ideograph Extension B>)
 1549	0x22939	𢤹 (<CJK Ideograph Extension B>)
 1550	0x35FB	㗻 (<CJK Ideograph Extension A>)
 1551	0x251E3	𥇣 (<CJK Ideograph Extension B>)
 1552	0x20E8C	𠺌 (<CJK Ideograph Extension B>)
 1553	0x20F8D	𠾍 (<CJK Ideograph Extension B>)
 1554	0x20EAA	𠺪 (<CJK Ideograph Extension B>)
 1555	0x3F93	㾓 (<CJK Ideograph Extension A>)
 1556	0x20F30	𠼰 (<CJK Ideograph Extension B>)
 1557	0x20D47	𠵇 (<CJK Ideograph Extension B>)
 1558	0x2114F	𡅏 (<CJK Ideograph Extension B>)
 1559	0x20E4C	𠹌 (<CJK Ideograph Extension B>)
 1561	0x20EAB	𠺫 (<CJK Ideograph Extension B>)
 1562	0x20BA9	𠮩 (<CJK Ideograph Extension B>)
 1563	0x20D48	𠵈 (<CJK Ideograph Extension B>)
 1564	0x210C0	𡃀 (<CJK Ideograph Extension B>)
 1565	0x2113D	𡄽 (<CJK Ideograph Extension B>)
 1566	0x3FF9	㿹 (<CJK Ideograph Extension A>)
 1567	0x22696	𢚖 (<CJK Ideograph Extension B>)
 1568	0x6432	搲 (<CJK Ideograph>)
 1569	0x20FAD	𠾭 (<CJK Ideograph Extension B>)
"#

/-- encoding_tables/whatwg/index-big5.txt:490-643 -/
noncomputable def index10 : List Text := lines! r#" 1570	0x233F4	𣏴 (<CJK Ideograph Extension B>)
 1571	0x27639	𧘹 (<CJK Ideograph Extension B>)
 1572	0x22BCE	𢯎 (<CJK Ideograph Extension B>)
 1573	0x20D7E	𠵾 (<CJK Ideograph Extension B>)
 1574	0x20D7F	𠵿 (<CJK Ideograph Extension B>)
 1575	0x22C51	𢱑 (<CJK Ideograph Extension B>)
 1576	0x22C55	𢱕 (<CJK Ideograph Extension B>)
 1577	0x3A18	㨘 (<CJK Ideograph Extension A>)
 1578	0x20E98	𠺘 (<CJK Ideograph Extension B>)
 1579	0x210C7	𡃇 (<CJK Ideograph Extension B>)
 1580	0x20F2E	𠼮 (<CJK Ideograph Extension B>)
 1581	0x2A632	𪘲 (<CJK Ideograph Extension B>)
 1582	0x26B50	𦭐 (<CJK Ideograph Extension B>)
 1583	0x28CD2	𨳒 (<CJK Ideograph Extension B>)
 1584	0x28D99	𨶙 (<CJK Ideograph Extension B>)
 1585	0x28CCA	𨳊 (<CJK Ideograph Extension B>)
 1586	0x95AA	閪 (<CJK Ideograph>)
 1587	0x54CC	哌 (<CJK Ideograph>)
 1588	0x82C4	苄 (<CJK Ideograph>)
 1589	0x55B9	喹 (<CJK Ideograph>)
 1591	0x29EC3	𩻃 (<CJK Ideograph Extension B>)
 1592	0x9C26	鰦 (<CJK Ideograph>)
 1593	0x9AB6	骶 (<CJK Ideograph>)
 1594	0x2775E	𧝞 (<CJK Ideograph Extension B>)
 1595	0x22DEE	𢷮 (<CJK Ideograph Extension B>)
 1596	0x7140	煀 (<CJK Ideograph>)
 1597	0x816D	腭 (<CJK Ideograph>)
 1598	0x80EC	胬 (<CJK Ideograph>)
 1599	0x5C1C	尜 (<CJK Ideograph>)
 1600	0x26572	𦕲 (<CJK Ideograph Extension B>)
 1601	0x8134	脴 (<CJK Ideograph>)
 1602	0x3797	㞗 (<CJK Ideograph Extension A>)
 1603	0x535F	卟 (<CJK Ideograph>)
 1604	0x280BD	𨂽 (<CJK Ideograph Extension B>)
 1605	0x91B6	醶 (<CJK Ideograph>)
 1606	0x20EFA	𠻺 (<CJK Ideograph Extension B>)
 1607	0x20E0F	𠸏 (<CJK Ideograph Extension B>)
 1608	0x20E77	𠹷 (<CJK Ideograph Extension B>)
 1609	0x20EFB	𠻻 (<CJK Ideograph Extension B>)
 1610	0x35DD	㗝 (<CJK Ideograph Extension A>)
 1611	0x24DEB	𤷫 (<CJK Ideograph Extension B>)
 1612	0x3609	㘉 (<CJK Ideograph Extension A>)
 1613	0x20CD6	𠳖 (<CJK Ideograph Extension B>)
 1614	0x56AF	嚯 (<CJK Ideograph>)
 1615	0x227B5	𢞵 (<CJK Ideograph Extension B>)
 1616	0x210C9	𡃉 (<CJK Ideograph Extension B>)
 1617	0x20E10	𠸐 (<CJK Ideograph Extension B>)
 1618	0x20E78	𠹸 (<CJK Ideograph Extension B>)
 1619	0x21078	𡁸 (<CJK Ideograph Extension B>)
 1620	0x21148	𡅈 (<CJK Ideograph Extension B>)
 1621	0x28207	𨈇 (<CJK Ideograph Extension B>)
 1622	0x21455	𡑕 (<CJK Ideograph Extension B>)
 1623	0x20E79	𠹹 (<CJK Ideograph Extension B>)
 1624	0x24E50	𤹐 (<CJK Ideograph Extension B>)
 1625	0x22DA4	𢶤 (<CJK Ideograph Extension B>)
 1626	0x5A54	婔 (<CJK Ideograph>)
 1627	0x2101D	𡀝 (<CJK Ideograph Extension B>)
 1628	0x2101E	𡀞 (<CJK Ideograph Extension B>)
 1629	0x210F5	𡃵 (<CJK Ideograph Extension B>)
 1630	0x210F6	𡃶 (<CJK Ideograph Extension B>)
 1631	0x579C	垜 (<CJK Ideograph>)
 1632	0x20E11	𠸑 (<CJK Ideograph Extension B>)
 1633	0x27694	𧚔 (<CJK Ideograph Extension B>)
 1634	0x282CD	𨋍 (<CJK Ideograph Extension B>)
 1635	0x20FB5	𠾵 (<CJK Ideograph Extension B>)
 1636	0x20E7B	𠹻 (<CJK Ideograph Extension B>)
 1637	0x2517E	𥅾 (<CJK Ideograph Extension B>)
 1638	0x3703	㜃 (<CJK Ideograph Extension A>)
 1639	0x20FB6	𠾶 (<CJK Ideograph Extension B>)
 1640	0x21180	𡆀 (<CJK Ideograph Extension B>)
 1641	0x252D8	𥋘 (<CJK Ideograph Extension B>)
 1642	0x2A2BD	𪊽 (<CJK Ideograph Extension B>)
 1643	0x249DA	𤧚 (<CJK Ideograph Extension B>)
 1644	0x2183A	𡠺 (<CJK Ideograph Extension B>)
 1645	0x24177	𤅷 (<CJK Ideograph Extension B>)
 1646	0x2827C	𨉼 (<CJK Ideograph Extension B>)
 1647	0x5899	墙 (<CJK Ideograph>)
 1648	0x5268	剨 (<CJK Ideograph>)
 1649	0x361A	㘚 (<CJK Ideograph Extension A>)
 1650	0x2573D	𥜽 (<CJK Ideograph Extension B>)
 1651	0x7BB2	箲 (<CJK Ideograph>)
 1652	0x5B68	孨 (<CJK Ideograph>)
 1653	0x4800	䠀 (<CJK Ideograph Extension A>)
 1654	0x4B2C	䬬 (<CJK Ideograph Extension A>)
 1655	0x9F27	鼧 (<CJK Ideograph>)
 1656	0x49E7	䧧 (<CJK Ideograph Extension A>)
 1657	0x9C1F	鰟 (<CJK Ideograph>)
 1658	0x9B8D	鮍 (<CJK Ideograph>)
 1659	0x25B74	𥭴 (<CJK Ideograph Extension B>)
 1660	0x2313D	𣄽 (<CJK Ideograph Extension B>)
 1661	0x55FB	嗻 (<CJK Ideograph>)
 1662	0x35F2	㗲 (<CJK Ideograph Extension A>)
 1663	0x5689	嚉 (<CJK Ideograph>)
 1664	0x4E28	丨 (<CJK Ideograph>)
 1665	0x5902	夂 (<CJK Ideograph>)
 1666	0x21BC1	𡯁 (<CJK Ideograph Extension B>)
 1667	0x2F878	屮 (CJK COMPATIBILITY IDEOGRAPH-2F878)
 1668	0x9751	靑 (<CJK Ideograph>)
 1669	0x20086	𠂆 (<CJK Ideograph Extension B>)
 1670	0x4E5B	乛 (<CJK Ideograph>)
 1671	0x4EBB	亻 (<CJK Ideograph>)
 1672	0x353E	㔾 (<CJK Ideograph Extension A>)
 1673	0x5C23	尣 (<CJK Ideograph>)
 1674	0x5F51	彑 (<CJK Ideograph>)
 1675	0x5FC4	忄 (<CJK Ideograph>)
 1676	0x38FA	㣺 (<CJK Ideograph Extension A>)
 1677	0x624C	扌 (<CJK Ideograph>)
 1678	0x6535	攵 (<CJK Ideograph>)
 1679	0x6B7A	歺 (<CJK Ideograph>)
 1680	0x6C35	氵 (<CJK Ideograph>)
 1681	0x6C3A	氺 (<CJK Ideograph>)
 1682	0x706C	灬 (<CJK Ideograph>)
 1683	0x722B	爫 (<CJK Ideograph>)
 1684	0x4E2C	丬 (<CJK Ideograph>)
 1685	0x72AD	犭 (<CJK Ideograph>)
 1686	0x248E9	𤣩 (<CJK Ideograph Extension B>)
 1687	0x7F52	罒 (<CJK Ideograph>)
 1688	0x793B	礻 (<CJK Ideograph>)
 1689	0x7CF9	糹 (<CJK Ideograph>)
 1690	0x7F53	罓 (<CJK Ideograph>)
 1691	0x2626A	𦉪 (<CJK Ideograph Extension B>)
 1692	0x34C1	㓁 (<CJK Ideograph Extension A>)
 1694	0x2634B	𦍋 (<CJK Ideograph Extension B>)
 1695	0x8002	耂 (<CJK Ideograph>)
 1696	0x8080	肀 (<CJK Ideograph>)
 1697	0x26612	𦘒 (<CJK Ideograph Extension B>)
 1698	0x26951	𦥑 (<CJK Ideograph Extension B>)
 1699	0x535D	卝 (<CJK Ideograph>)
 1700	0x8864	衤 (<CJK Ideograph>)
 1701	0x89C1	见 (<CJK Ideograph>)
 1702	0x278B2	𧢲 (<CJK Ideograph Extension B>)
 1703	0x8BA0	讠 (<CJK Ideograph>)
 1704	0x8D1D	贝 (<CJK Ideograph>)
 1705	0x9485	钅 (<CJK Ideograph>)
 1706	0x9578	镸 (<CJK Ideograph>)
 1707	0x957F	长 (<CJK Ideograph>)
 1708	0x95E8	门 (<CJK Ideograph>)
 1709	0x28E0F	𨸏 (<CJK Ideograph Extension B>)
 1710	0x97E6	韦 (<CJK Ideograph>)
 1711	0x9875	页 (<CJK Ideograph>)
 1712	0x98CE	风 (<CJK Ideograph>)
 1713	0x98DE	飞 (<CJK Ideograph>)
 1714	0x9963	饣 (<CJK Ideograph>)
 1715	0x29810	𩠐 (<CJK Ideograph Extension B>)
 1716	0x9C7C	鱼 (<CJK Ideograph>)
 1717	0x9E1F	鸟 (<CJK Ideograph>)
 1718	0x9EC4	黄 (<CJK Ideograph>)
 1719	0x6B6F	歯 (<CJK Ideograph>)
 1720	0xF907	龜 (CJK COMPATIBILITY IDEOGRAPH-F907)
 1721	0x4E37	丷 (<CJK Ideograph>)
 1722	0x20087	𠂇 (<CJK Ideograph Extension B>)
 1723	0x961D	阝 (<CJK Ideograph>)
 1724	0x6237	户 (<CJK Ideograph>)
 1725	0x94A2	钢 (<CJK Ideograph>)
"#

/-- encoding_tables/whatwg/index-big5.txt:644-794 -/
noncomputable def index11 : List Text := lines! r#" 1727	0x503B	倻 (<CJK Ideograph>)
 1728	0x6DFE	淾 (<CJK Ideograph>)
 1729	0x29C73	𩱳 (<CJK Ideograph Extension B>)
 1730	0x9FA6	龦 (<CJK Ideograph>)
 1731	0x3DC9	㷉 (<CJK Ideograph Extension A>)
 1732	0x888F	袏 (<CJK Ideograph>)
 1733	0x2414E	𤅎 (<CJK Ideograph Extension B>)
 1734	0x7077	灷 (<CJK Ideograph>)
 1735	0x5CF5	峵 (<CJK Ideograph>)
 1736	0x4B20	䬠 (<CJK Ideograph Extension A>)
 1737	0x251CD	𥇍 (<CJK Ideograph Extension B>)
 1738	0x3559	㕙 (<CJK Ideograph Extension A>)
 1739	0x25D30	𥴰 (<CJK Ideograph Extension B>)
 1740	0x6122	愢 (<CJK Ideograph>)
 1741	0x28A32	𨨲 (<CJK Ideograph Extension B>)
 1742	0x8FA7	辧 (<CJK Ideograph>)
 1743	0x91F6	釶 (<CJK Ideograph>)
 1744	0x7191	熑 (<CJK Ideograph>)
 1745	0x6719	朙 (<CJK Ideograph>)
 1746	0x73BA	玺 (<CJK Ideograph>)
 1747	0x23281	𣊁 (<CJK Ideograph Extension B>)
 1748	0x2A107	𪄇 (<CJK Ideograph Extension B>)
 1749	0x3C8B	㲋 (<CJK Ideograph Extension A>)
 1750	0x21980	𡦀 (<CJK Ideograph Extension B>)
 1751	0x4B10	䬐 (<CJK Ideograph Extension A>)
 1752	0x78E4	磤 (<CJK Ideograph>)
 1753	0x7402	琂 (<CJK Ideograph>)
 1754	0x51AE	冮 (<CJK Ideograph>)
 1755	0x2870F	𨜏 (<CJK Ideograph Extension B>)
 1756	0x4009	䀉 (<CJK Ideograph Extension A>)
 1757	0x6A63	橣 (<CJK Ideograph>)
 1758	0x2A2BA	𪊺 (<CJK Ideograph Extension B>)
 1759	0x4223	䈣 (<CJK Ideograph Extension A>)
 1760	0x860F	蘏 (<CJK Ideograph>)
 1761	0x20A6F	𠩯 (<CJK Ideograph Extension B>)
 1762	0x7A2A	稪 (<CJK Ideograph>)
 1763	0x29947	𩥇 (<CJK Ideograph Extension B>)
 1764	0x28AEA	𨫪 (<CJK Ideograph Extension B>)
 1765	0x9755	靕 (<CJK Ideograph>)
 1766	0x704D	灍 (<CJK Ideograph>)
 1767	0x5324	匤 (<CJK Ideograph>)
 1768	0x2207E	𢁾 (<CJK Ideograph Extension B>)
 1769	0x93F4	鏴 (<CJK Ideograph>)
 1770	0x76D9	盙 (<CJK Ideograph>)
 1771	0x289E3	𨧣 (<CJK Ideograph Extension B>)
 1772	0x9FA7	龧 (<CJK Ideograph>)
 1773	0x77DD	矝 (<CJK Ideograph>)
 1774	0x4EA3	亣 (<CJK Ideograph>)
 1775	0x4FF0	俰 (<CJK Ideograph>)
 1776	0x50BC	傼 (<CJK Ideograph>)
 1777	0x4E2F	丯 (<CJK Ideograph>)
 1778	0x4F17	众 (<CJK Ideograph>)
 1779	0x9FA8	龨 (<CJK Ideograph>)
 1780	0x5434	吴 (<CJK Ideograph>)
 1781	0x7D8B	綋 (<CJK Ideograph>)
 1782	0x5892	墒 (<CJK Ideograph>)
 1783	0x58D0	壐 (<CJK Ideograph>)
 1784	0x21DB6	𡶶 (<CJK Ideograph Extension B>)
 1785	0x5E92	庒 (<CJK Ideograph>)
 1786	0x5E99	庙 (<CJK Ideograph>)
 1787	0x5FC2	忂 (<CJK Ideograph>)
 1788	0x22712	𢜒 (<CJK Ideograph Extension B>)
 1789	0x658B	斋 (<CJK Ideograph>)
 1790	0x233F9	𣏹 (<CJK Ideograph Extension B>)
 1791	0x6919	椙 (<CJK Ideograph>)
 1792	0x6A43	橃 (<CJK Ideograph>)
 1793	0x23C63	𣱣 (<CJK Ideograph Extension B>)
 1794	0x6CFF	泿 (<CJK Ideograph>)
 1796	0x7200	爀 (<CJK Ideograph>)
 1797	0x24505	𤔅 (<CJK Ideograph Extension B>)
 1798	0x738C	玌 (<CJK Ideograph>)
 1799	0x3EDB	㻛 (<CJK Ideograph Extension A>)
 1800	0x24A13	𤨓 (<CJK Ideograph Extension B>)
 1801	0x5B15	嬕 (<CJK Ideograph>)
 1802	0x74B9	璹 (<CJK Ideograph>)
 1803	0x8B83	讃 (<CJK Ideograph>)
 1804	0x25CA4	𥲤 (<CJK Ideograph Extension B>)
 1805	0x25695	𥚕 (<CJK Ideograph Extension B>)
 1806	0x7A93	窓 (<CJK Ideograph>)
 1807	0x7BEC	篬 (<CJK Ideograph>)
 1808	0x7CC3	糃 (<CJK Ideograph>)
 1809	0x7E6C	繬 (<CJK Ideograph>)
 1810	0x82F8	苸 (<CJK Ideograph>)
 1811	0x8597	薗 (<CJK Ideograph>)
 1812	0x9FA9	龩 (<CJK Ideograph>)
 1813	0x8890	袐 (<CJK Ideograph>)
 1814	0x9FAA	龪 (<CJK Ideograph>)
 1815	0x8EB9	躹 (<CJK Ideograph>)
 1816	0x9FAB	龫 (<CJK Ideograph>)
 1817	0x8FCF	迏 (<CJK Ideograph>)
 1818	0x855F	蕟 (<CJK Ideograph>)
 1819	0x99E0	駠 (<CJK Ideograph>)
 1820	0x9221	鈡 (<CJK Ideograph>)
 1821	0x9FAC	龬 (<CJK Ideograph>)
 1822	0x28DB9	𨶹 (<CJK Ideograph Extension B>)
 1823	0x2143F	𡐿 (<CJK Ideograph Extension B>)
 1824	0x4071	䁱 (<CJK Ideograph Extension A>)
 1825	0x42A2	䊢 (<CJK Ideograph Extension A>)
 1826	0x5A1A	娚 (<CJK Ideograph>)
 1830	0x9868	顨 (<CJK Ideograph>)
 1831	0x676B	杫 (<CJK Ideograph>)
 1832	0x4276	䉶 (<CJK Ideograph Extension A>)
 1833	0x573D	圽 (<CJK Ideograph>)
 1835	0x85D6	藖 (<CJK Ideograph>)
 1836	0x2497B	𤥻 (<CJK Ideograph Extension B>)
 1837	0x82BF	芿 (<CJK Ideograph>)
 1838	0x2710D	𧄍 (<CJK Ideograph Extension B>)
 1839	0x4C81	䲁 (<CJK Ideograph Extension A>)
 1840	0x26D74	𦵴 (<CJK Ideograph Extension B>)
 1841	0x5D7B	嵻 (<CJK Ideograph>)
 1842	0x26B15	𦬕 (<CJK Ideograph Extension B>)
 1843	0x26FBE	𦾾 (<CJK Ideograph Extension B>)
 1844	0x9FAD	龭 (<CJK Ideograph>)
 1845	0x9FAE	龮 (<CJK Ideograph>)
 1846	0x5B96	宖 (<CJK Ideograph>)
 1847	0x9FAF	龯 (<CJK Ideograph>)
 1848	0x66E7	曧 (<CJK Ideograph>)
 1849	0x7E5B	繛 (<CJK Ideograph>)
 1850	0x6E57	湗 (<CJK Ideograph>)
 1851	0x79CA	秊 (<CJK Ideograph>)
 1852	0x3D88	㶈 (<CJK Ideograph Extension A>)
 1853	0x44C3	䓃 (<CJK Ideograph Extension A>)
 1854	0x23256	𣉖 (<CJK Ideograph Extension B>)
 1855	0x22796	𢞖 (<CJK Ideograph Extension B>)
 1856	0x439A	䎚 (<CJK Ideograph Extension A>)
 1857	0x4536	䔶 (<CJK Ideograph Extension A>)
 1859	0x5CD5	峕 (<CJK Ideograph>)
 1860	0x23B1A	𣬚 (<CJK Ideograph Extension B>)
 1861	0x8AF9	諹 (<CJK Ideograph>)
 1862	0x5C78	屸 (<CJK Ideograph>)
 1863	0x3D12	㴒 (<CJK Ideograph Extension A>)
 1864	0x23551	𣕑 (<CJK Ideograph Extension B>)
 1865	0x5D78	嵸 (<CJK Ideograph>)
 1866	0x9FB2	龲 (<CJK Ideograph>)
 1867	0x7157	煗 (<CJK Ideograph>)
 1868	0x4558	䕘 (<CJK Ideograph Extension A>)
 1869	0x240EC	𤃬 (<CJK Ideograph Extension B>)
 1870	0x21E23	𡸣 (<CJK Ideograph Extension B>)
 1871	0x4C77	䱷 (<CJK Ideograph Extension A>)
 1872	0x3978	㥸 (<CJK Ideograph Extension A>)
 1873	0x344A	㑊 (<CJK Ideograph Extension A>)
 1874	0x201A4	𠆤 (<CJK Ideograph Extension B>)
 1875	0x26C41	𦱁 (<CJK Ideograph Extension B>)
 1876	0x8ACC	諌 (<CJK Ideograph>)
 1877	0x4FB4	侴 (<CJK Ideograph>)
 1878	0x20239	𠈹 (<CJK Ideograph Extension B>)
 1879	0x59BF	妿 (<CJK Ideograph>)
 1880	0x816C	腬 (<CJK Ideograph>)
 1881	0x9856	顖 (<CJK Ideograph>)
 1882	0x298FA	𩣺 (<CJK Ideograph Extension B>)
 1883	0x5F3B	弻 (<CJK Ideograph>)
"#

/-- encoding_tables/whatwg/index-big5.txt:795-950 -/
noncomputable def index12 : List Text := lines! r#" 1884	0x20B9F	𠮟 (<CJK Ideograph Extension B>)
 1886	0x221C1	𢇁 (<CJK Ideograph Extension B>)
 1887	0x2896D	𨥭 (<CJK Ideograph Extension B>)
 1888	0x4102	䄂 (<CJK Ideograph Extension A>)
 1889	0x46BB	䚻 (<CJK Ideograph Extension A>)
 1890	0x29079	𩁹 (<CJK Ideograph Extension B>)
 1891	0x3F07	㼇 (<CJK Ideograph Extension A>)
 1892	0x9FB3	龳 (<CJK Ideograph>)
 1893	0x2A1B5	𪆵 (<CJK Ideograph Extension B>)
 1894	0x40F8	䃸 (<CJK Ideograph Extension A>)
 1895	0x37D6	㟖 (<CJK Ideograph Extension A>)
 1896	0x46F7	䛷 (<CJK Ideograph Extension A>)
 1897	0x26C46	𦱆 (<CJK Ideograph Extension B>)
 1898	0x417C	䅼 (<CJK Ideograph Extension A>)
 1899	0x286B2	𨚲 (<CJK Ideograph Extension B>)
 1900	0x273FF	𧏿 (<CJK Ideograph Extension B>)
 1901	0x456D	䕭 (<CJK Ideograph Extension A>)
 1902	0x38D4	㣔 (<CJK Ideograph Extension A>)
 1903	0x2549A	𥒚 (<CJK Ideograph Extension B>)
 1904	0x4561	䕡 (<CJK Ideograph Extension A>)
 1905	0x451B	䔛 (<CJK Ideograph Extension A>)
 1906	0x4D89	䶉 (<CJK Ideograph Extension A>)
 1907	0x4C7B	䱻 (<CJK Ideograph Extension A>)
 1908	0x4D76	䵶 (<CJK Ideograph Extension A>)
 1909	0x45EA	䗪 (<CJK Ideograph Extension A>)
 1910	0x3FC8	㿈 (<CJK Ideograph Extension A>)
 1911	0x24B0F	𤬏 (<CJK Ideograph Extension B>)
 1912	0x3661	㙡 (<CJK Ideograph Extension A>)
 1913	0x44DE	䓞 (<CJK Ideograph Extension A>)
 1914	0x44BD	䒽 (<CJK Ideograph Extension A>)
 1915	0x41ED	䇭 (<CJK Ideograph Extension A>)
 1916	0x5D3E	崾 (<CJK Ideograph>)
 1917	0x5D48	嵈 (<CJK Ideograph>)
 1918	0x5D56	嵖 (<CJK Ideograph>)
 1919	0x3DFC	㷼 (<CJK Ideograph Extension A>)
 1920	0x380F	㠏 (<CJK Ideograph Extension A>)
 1921	0x5DA4	嶤 (<CJK Ideograph>)
 1922	0x5DB9	嶹 (<CJK Ideograph>)
 1923	0x3820	㠠 (<CJK Ideograph Extension A>)
 1924	0x3838	㠸 (<CJK Ideograph Extension A>)
 1925	0x5E42	幂 (<CJK Ideograph>)
 1926	0x5EBD	庽 (<CJK Ideograph>)
 1927	0x5F25	弥 (<CJK Ideograph>)
 1928	0x5F83	徃 (<CJK Ideograph>)
 1929	0x3908	㤈 (<CJK Ideograph Extension A>)
 1930	0x3914	㤔 (<CJK Ideograph Extension A>)
 1931	0x393F	㤿 (<CJK Ideograph Extension A>)
 1932	0x394D	㥍 (<CJK Ideograph Extension A>)
 1933	0x60D7	惗 (<CJK Ideograph>)
 1934	0x613D	愽 (<CJK Ideograph>)
 1935	0x5CE5	峥 (<CJK Ideograph>)
 1936	0x3989	㦉 (<CJK Ideograph Extension A>)
 1937	0x61B7	憷 (<CJK Ideograph>)
 1938	0x61B9	憹 (<CJK Ideograph>)
 1939	0x61CF	懏 (<CJK Ideograph>)
 1940	0x39B8	㦸 (<CJK Ideograph Extension A>)
 1941	0x622C	戬 (<CJK Ideograph>)
 1942	0x6290	抐 (<CJK Ideograph>)
 1943	0x62E5	拥 (<CJK Ideograph>)
 1944	0x6318	挘 (<CJK Ideograph>)
 1945	0x39F8	㧸 (<CJK Ideograph Extension A>)
 1946	0x56B1	嚱 (<CJK Ideograph>)
 1947	0x3A03	㨃 (<CJK Ideograph Extension A>)
 1948	0x63E2	揢 (<CJK Ideograph>)
 1949	0x63FB	揻 (<CJK Ideograph>)
 1950	0x6407	搇 (<CJK Ideograph>)
 1951	0x645A	摚 (<CJK Ideograph>)
 1952	0x3A4B	㩋 (<CJK Ideograph Extension A>)
 1953	0x64C0	擀 (<CJK Ideograph>)
 1954	0x5D15	崕 (<CJK Ideograph>)
 1955	0x5621	嘡 (<CJK Ideograph>)
 1956	0x9F9F	龟 (<CJK Ideograph>)
 1957	0x3A97	㪗 (<CJK Ideograph Extension A>)
 1958	0x6586	斆 (<CJK Ideograph>)
 1959	0x3ABD	㪽 (<CJK Ideograph Extension A>)
 1960	0x65FF	旿 (<CJK Ideograph>)
 1961	0x6653	晓 (<CJK Ideograph>)
 1962	0x3AF2	㫲 (<CJK Ideograph Extension A>)
 1963	0x6692	暒 (<CJK Ideograph>)
 1964	0x3B22	㬢 (<CJK Ideograph Extension A>)
 1965	0x6716	朖 (<CJK Ideograph>)
 1966	0x3B42	㭂 (<CJK Ideograph Extension A>)
 1967	0x67A4	枤 (<CJK Ideograph>)
 1968	0x6800	栀 (<CJK Ideograph>)
 1969	0x3B58	㭘 (<CJK Ideograph Extension A>)
 1970	0x684A	桊 (<CJK Ideograph>)
 1971	0x6884	梄 (<CJK Ideograph>)
 1972	0x3B72	㭲 (<CJK Ideograph Extension A>)
 1973	0x3B71	㭱 (<CJK Ideograph Extension A>)
 1974	0x3B7B	㭻 (<CJK Ideograph Extension A>)
 1975	0x6909	椉 (<CJK Ideograph>)
 1976	0x6943	楃 (<CJK Ideograph>)
 1977	0x725C	牜 (<CJK Ideograph>)
 1978	0x6964	楤 (<CJK Ideograph>)
 1979	0x699F	榟 (<CJK Ideograph>)
 1980	0x6985	榅 (<CJK Ideograph>)
 1981	0x3BBC	㮼 (<CJK Ideograph Extension A>)
 1982	0x69D6	槖 (<CJK Ideograph>)
 1983	0x3BDD	㯝 (<CJK Ideograph Extension A>)
 1984	0x6A65	橥 (<CJK Ideograph>)
 1985	0x6A74	橴 (<CJK Ideograph>)
 1986	0x6A71	橱 (<CJK Ideograph>)
 1987	0x6A82	檂 (<CJK Ideograph>)
 1988	0x3BEC	㯬 (<CJK Ideograph Extension A>)
 1989	0x6A99	檙 (<CJK Ideograph>)
 1990	0x3BF2	㯲 (<CJK Ideograph Extension A>)
 1991	0x6AAB	檫 (<CJK Ideograph>)
 1992	0x6AB5	檵 (<CJK Ideograph>)
 1993	0x6AD4	櫔 (<CJK Ideograph>)
 1994	0x6AF6	櫶 (<CJK Ideograph>)
 1995	0x6B81	殁 (<CJK Ideograph>)
 1996	0x6BC1	毁 (<CJK Ideograph>)
 1997	0x6BEA	毪 (<CJK Ideograph>)
 1998	0x6C75	汵 (<CJK Ideograph>)
 1999	0x6CAA	沪 (<CJK Ideograph>)
 2000	0x3CCB	㳋 (<CJK Ideograph Extension A>)
 2001	0x6D02	洂 (<CJK Ideograph>)
 2002	0x6D06	洆 (<CJK Ideograph>)
 2003	0x6D26	洦 (<CJK Ideograph>)
 2004	0x6D81	涁 (<CJK Ideograph>)
 2005	0x3CEF	㳯 (<CJK Ideograph Extension A>)
 2006	0x6DA4	涤 (<CJK Ideograph>)
 2007	0x6DB1	涱 (<CJK Ideograph>)
 2008	0x6E15	渕 (<CJK Ideograph>)
 2009	0x6E18	渘 (<CJK Ideograph>)
 2010	0x6E29	温 (<CJK Ideograph>)
 2011	0x6E86	溆 (<CJK Ideograph>)
 2012	0x289C0	𨧀 (<CJK Ideograph Extension B>)
 2013	0x6EBB	溻 (<CJK Ideograph>)
 2014	0x6EE2	滢 (<CJK Ideograph>)
 2015	0x6EDA	滚 (<CJK Ideograph>)
 2016	0x9F7F	齿 (<CJK Ideograph>)
 2017	0x6EE8	滨 (<CJK Ideograph>)
 2018	0x6EE9	滩 (<CJK Ideograph>)
 2019	0x6F24	漤 (<CJK Ideograph>)
 2020	0x6F34	漴 (<CJK Ideograph>)
 2021	0x3D46	㵆 (<CJK Ideograph Extension A>)
 2022	0x23F41	𣽁 (<CJK Ideograph Extension B>)
 2023	0x6F81	澁 (<CJK Ideograph>)
 2024	0x6FBE	澾 (<CJK Ideograph>)
 2025	0x3D6A	㵪 (<CJK Ideograph Extension A>)
 2026	0x3D75	㵵 (<CJK Ideograph Extension A>)
 2027	0x71B7	熷 (<CJK Ideograph>)
 2028	0x5C99	岙 (<CJK Ideograph>)
 2029	0x3D8A	㶊 (<CJK Ideograph Extension A>)
 2030	0x702C	瀬 (<CJK Ideograph>)
 2031	0x3D91	㶑 (<CJK Ideograph Extension A>)
 2032	0x7050	灐 (<CJK Ideograph>)
 2033	0x7054	灔 (<CJK Ideograph>)
 2034	0x706F	灯 (<CJK Ideograph>)
 2035	0x707F	灿 (<CJK Ideograph>)
 2036	0x7089	炉 (<CJK Ideograph>)
 2037	0x20325	𠌥 (<CJK Ideograph Extension B>)
 2038	0x43C1	䏁 (<CJK Ideograph Extension A>)
 2039	0x35F1	㗱 (<CJK Ideograph Extension A>)
 2040	0x20ED8	𠻘 (<CJK Ideograph Extension B>)
"#

/-- encoding_tables/whatwg/index-big5.txt:951-1107 -/
noncomputable def index13 : List Text := lines! r#" 2041	0x23ED7	𣻗 (<CJK Ideograph Extension B>)
 2042	0x57BE	垾 (<CJK Ideograph>)
 2043	0x26ED3	𦻓 (<CJK Ideograph Extension B>)
 2044	0x713E	焾 (<CJK Ideograph>)
 2045	0x257E0	𥟠 (<CJK Ideograph Extension B>)
 2046	0x364E	㙎 (<CJK Ideograph Extension A>)
 2047	0x69A2	榢 (<CJK Ideograph>)
 2048	0x28BE9	𨯩 (<CJK Ideograph Extension B>)
 2049	0x5B74	孴 (<CJK Ideograph>)
 2050	0x7A49	穉 (<CJK Ideograph>)
 2051	0x258E1	𥣡 (<CJK Ideograph Extension B>)
 2052	0x294D9	𩓙 (<CJK Ideograph Extension B>)
 2053	0x7A65	穥 (<CJK Ideograph>)
 2054	0x7A7D	穽 (<CJK Ideograph>)
 2055	0x259AC	𥦬 (<CJK Ideograph Extension B>)
 2056	0x7ABB	窻 (<CJK Ideograph>)
 2057	0x7AB0	窰 (<CJK Ideograph>)
 2058	0x7AC2	竂 (<CJK Ideograph>)
 2059	0x7AC3	竃 (<CJK Ideograph>)
 2060	0x71D1	燑 (<CJK Ideograph>)
 2061	0x2648D	𦒍 (<CJK Ideograph Extension B>)
 2062	0x41CA	䇊 (<CJK Ideograph Extension A>)
 2063	0x7ADA	竚 (<CJK Ideograph>)
 2064	0x7ADD	竝 (<CJK Ideograph>)
 2065	0x7AEA	竪 (<CJK Ideograph>)
 2066	0x41EF	䇯 (<CJK Ideograph Extension A>)
 2067	0x54B2	咲 (<CJK Ideograph>)
 2068	0x25C01	𥰁 (<CJK Ideograph Extension B>)
 2069	0x7B0B	笋 (<CJK Ideograph>)
 2070	0x7B55	筕 (<CJK Ideograph>)
 2071	0x7B29	笩 (<CJK Ideograph>)
 2072	0x2530E	𥌎 (<CJK Ideograph Extension B>)
 2073	0x25CFE	𥳾 (<CJK Ideograph Extension B>)
 2074	0x7BA2	箢 (<CJK Ideograph>)
 2075	0x7B6F	筯 (<CJK Ideograph>)
 2076	0x839C	莜 (<CJK Ideograph>)
 2077	0x25BB4	𥮴 (<CJK Ideograph Extension B>)
 2078	0x26C7F	𦱿 (<CJK Ideograph Extension B>)
 2079	0x7BD0	篐 (<CJK Ideograph>)
 2080	0x8421	萡 (<CJK Ideograph>)
 2081	0x7B92	箒 (<CJK Ideograph>)
 2082	0x7BB8	箸 (<CJK Ideograph>)
 2083	0x25D20	𥴠 (<CJK Ideograph Extension B>)
 2084	0x3DAD	㶭 (<CJK Ideograph Extension A>)
 2085	0x25C65	𥱥 (<CJK Ideograph Extension B>)
 2086	0x8492	蒒 (<CJK Ideograph>)
 2087	0x7BFA	篺 (<CJK Ideograph>)
 2088	0x7C06	簆 (<CJK Ideograph>)
 2089	0x7C35	簵 (<CJK Ideograph>)
 2090	0x25CC1	𥳁 (<CJK Ideograph Extension B>)
 2091	0x7C44	籄 (<CJK Ideograph>)
 2092	0x7C83	粃 (<CJK Ideograph>)
 2093	0x24882	𤢂 (<CJK Ideograph Extension B>)
 2094	0x7CA6	粦 (<CJK Ideograph>)
 2095	0x667D	晽 (<CJK Ideograph>)
 2096	0x24578	𤕸 (<CJK Ideograph Extension B>)
 2097	0x7CC9	糉 (<CJK Ideograph>)
 2098	0x7CC7	糇 (<CJK Ideograph>)
 2099	0x7CE6	糦 (<CJK Ideograph>)
 2100	0x7C74	籴 (<CJK Ideograph>)
 2101	0x7CF3	糳 (<CJK Ideograph>)
 2102	0x7CF5	糵 (<CJK Ideograph>)
 2103	0x7CCE	糎 (<CJK Ideograph>)
 2104	0x7E67	繧 (<CJK Ideograph>)
 2105	0x451D	䔝 (<CJK Ideograph Extension A>)
 2106	0x26E44	𦹄 (<CJK Ideograph Extension B>)
 2107	0x7D5D	絝 (<CJK Ideograph>)
 2108	0x26ED6	𦻖 (<CJK Ideograph Extension B>)
 2109	0x748D	璍 (<CJK Ideograph>)
 2110	0x7D89	綉 (<CJK Ideograph>)
 2111	0x7DAB	綫 (<CJK Ideograph>)
 2112	0x7135	焵 (<CJK Ideograph>)
 2113	0x7DB3	綳 (<CJK Ideograph>)
 2114	0x7DD2	緒 (<CJK Ideograph>)
 2115	0x24057	𤁗 (<CJK Ideograph Extension B>)
 2116	0x26029	𦀩 (<CJK Ideograph Extension B>)
 2117	0x7DE4	緤 (<CJK Ideograph>)
 2118	0x3D13	㴓 (<CJK Ideograph Extension A>)
 2119	0x7DF5	緵 (<CJK Ideograph>)
 2120	0x217F9	𡟹 (<CJK Ideograph Extension B>)
 2121	0x7DE5	緥 (<CJK Ideograph>)
 2122	0x2836D	𨍭 (<CJK Ideograph Extension B>)
 2123	0x7E1D	縝 (<CJK Ideograph>)
 2124	0x26121	𦄡 (<CJK Ideograph Extension B>)
 2125	0x2615A	𦅚 (<CJK Ideograph Extension B>)
 2126	0x7E6E	繮 (<CJK Ideograph>)
 2127	0x7E92	纒 (<CJK Ideograph>)
 2128	0x432B	䌫 (<CJK Ideograph Extension A>)
 2129	0x946C	鑬 (<CJK Ideograph>)
 2130	0x7E27	縧 (<CJK Ideograph>)
 2131	0x7F40	罀 (<CJK Ideograph>)
 2132	0x7F41	罁 (<CJK Ideograph>)
 2133	0x7F47	罇 (<CJK Ideograph>)
 2134	0x7936	礶 (<CJK Ideograph>)
 2135	0x262D0	𦋐 (<CJK Ideograph Extension B>)
 2136	0x99E1	駡 (<CJK Ideograph>)
 2137	0x7F97	羗 (<CJK Ideograph>)
 2138	0x26351	𦍑 (<CJK Ideograph Extension B>)
 2139	0x7FA3	羣 (<CJK Ideograph>)
 2140	0x21661	𡙡 (<CJK Ideograph Extension B>)
 2141	0x20068	𠁨 (<CJK Ideograph Extension B>)
 2142	0x455C	䕜 (<CJK Ideograph Extension A>)
 2143	0x23766	𣝦 (<CJK Ideograph Extension B>)
 2144	0x4503	䔃 (<CJK Ideograph Extension A>)
 2145	0x2833A	𨌺 (<CJK Ideograph Extension B>)
 2146	0x7FFA	翺 (<CJK Ideograph>)
 2147	0x26489	𦒉 (<CJK Ideograph Extension B>)
 2148	0x8005	者 (<CJK Ideograph>)
 2149	0x8008	耈 (<CJK Ideograph>)
 2150	0x801D	耝 (<CJK Ideograph>)
 2151	0x8028	耨 (<CJK Ideograph>)
 2152	0x802F	耯 (<CJK Ideograph>)
 2153	0x2A087	𪂇 (<CJK Ideograph Extension B>)
 2154	0x26CC3	𦳃 (<CJK Ideograph Extension B>)
 2155	0x803B	耻 (<CJK Ideograph>)
 2156	0x803C	耼 (<CJK Ideograph>)
 2157	0x8061	聡 (<CJK Ideograph>)
 2158	0x22714	𢜔 (<CJK Ideograph Extension B>)
 2159	0x4989	䦉 (<CJK Ideograph Extension A>)
 2160	0x26626	𦘦 (<CJK Ideograph Extension B>)
 2161	0x23DE3	𣷣 (<CJK Ideograph Extension B>)
 2162	0x266E8	𦛨 (<CJK Ideograph Extension B>)
 2163	0x6725	朥 (<CJK Ideograph>)
 2164	0x80A7	肧 (<CJK Ideograph>)
 2165	0x28A48	𨩈 (<CJK Ideograph Extension B>)
 2166	0x8107	脇 (<CJK Ideograph>)
 2167	0x811A	脚 (<CJK Ideograph>)
 2168	0x58B0	墰 (<CJK Ideograph>)
 2169	0x226F6	𢛶 (<CJK Ideograph Extension B>)
 2170	0x6C7F	汿 (<CJK Ideograph>)
 2171	0x26498	𦒘 (<CJK Ideograph Extension B>)
 2172	0x24FB8	𤾸 (<CJK Ideograph Extension B>)
 2173	0x64E7	擧 (<CJK Ideograph>)
 2174	0x2148A	𡒊 (<CJK Ideograph Extension B>)
 2175	0x8218	舘 (<CJK Ideograph>)
 2176	0x2185E	𡡞 (<CJK Ideograph Extension B>)
 2177	0x6A53	橓 (<CJK Ideograph>)
 2178	0x24A65	𤩥 (<CJK Ideograph Extension B>)
 2179	0x24A95	𤪕 (<CJK Ideograph Extension B>)
 2180	0x447A	䑺 (<CJK Ideograph Extension A>)
 2181	0x8229	舩 (<CJK Ideograph>)
 2182	0x20B0D	𠬍 (<CJK Ideograph Extension B>)
 2183	0x26A52	𦩒 (<CJK Ideograph Extension B>)
 2184	0x23D7E	𣵾 (<CJK Ideograph Extension B>)
 2185	0x4FF9	俹 (<CJK Ideograph>)
 2186	0x214FD	𡓽 (<CJK Ideograph Extension B>)
 2187	0x84E2	蓢 (<CJK Ideograph>)
 2188	0x8362	荢 (<CJK Ideograph>)
 2189	0x26B0A	𦬊 (<CJK Ideograph Extension B>)
 2190	0x249A7	𤦧 (<CJK Ideograph Extension B>)
 2191	0x23530	𣔰 (<CJK Ideograph Extension B>)
 2192	0x21773	𡝳 (<CJK Ideograph Extension B>)
 2193	0x23DF8	𣷸 (<CJK Ideograph Extension B>)
 2194	0x82AA	芪 (<CJK Ideograph>)
 2195	0x691B	椛 (<CJK Ideograph>)
 2196	0x2F994	芳 (CJK COMPATIBILITY IDEOGRAPH-2F994)
 2197	0x41DB	䇛 (<CJK Ideograph Extension A>)
"#

/-- encoding_tables/whatwg/index-big5.txt:1108-1264 -/
noncomputable def index14 : List Text := lines! r#" 2198	0x854B	蕋 (<CJK Ideograph>)
 2199	0x82D0	苐 (<CJK Ideograph>)
 2200	0x831A	茚 (<CJK Ideograph>)
 2201	0x20E16	𠸖 (<CJK Ideograph Extension B>)
 2202	0x217B4	𡞴 (<CJK Ideograph Extension B>)
 2203	0x36C1	㛁 (<CJK Ideograph Extension A>)
 2204	0x2317D	𣅽 (<CJK Ideograph Extension B>)
 2205	0x2355A	𣕚 (<CJK Ideograph Extension B>)
 2206	0x827B	艻 (<CJK Ideograph>)
 2207	0x82E2	苢 (<CJK Ideograph>)
 2208	0x8318	茘 (<CJK Ideograph>)
 2209	0x23E8B	𣺋 (<CJK Ideograph Extension B>)
 2210	0x26DA3	𦶣 (<CJK Ideograph Extension B>)
 2211	0x26B05	𦬅 (<CJK Ideograph Extension B>)
 2212	0x26B97	𦮗 (<CJK Ideograph Extension B>)
 2213	0x235CE	𣗎 (<CJK Ideograph Extension B>)
 2214	0x3DBF	㶿 (<CJK Ideograph Extension A>)
 2215	0x831D	茝 (<CJK Ideograph>)
 2216	0x55EC	嗬 (<CJK Ideograph>)
 2217	0x8385	莅 (<CJK Ideograph>)
 2218	0x450B	䔋 (<CJK Ideograph Extension A>)
 2219	0x26DA5	𦶥 (<CJK Ideograph Extension B>)
 2220	0x83AC	莬 (<CJK Ideograph>)
 2221	0x83C1	菁 (<CJK Ideograph>)
 2222	0x83D3	菓 (<CJK Ideograph>)
 2223	0x347E	㑾 (<CJK Ideograph Extension A>)
 2224	0x26ED4	𦻔 (<CJK Ideograph Extension B>)
 2225	0x6A57	橗 (<CJK Ideograph>)
 2226	0x855A	蕚 (<CJK Ideograph>)
 2227	0x3496	㒖 (<CJK Ideograph Extension A>)
 2228	0x26E42	𦹂 (<CJK Ideograph Extension B>)
 2229	0x22EEF	𢻯 (<CJK Ideograph Extension B>)
 2230	0x8458	葘 (<CJK Ideograph>)
 2231	0x25BE4	𥯤 (<CJK Ideograph Extension B>)
 2232	0x8471	葱 (<CJK Ideograph>)
 2233	0x3DD3	㷓 (<CJK Ideograph Extension A>)
 2234	0x44E4	䓤 (<CJK Ideograph Extension A>)
 2235	0x6AA7	檧 (<CJK Ideograph>)
 2236	0x844A	葊 (<CJK Ideograph>)
 2237	0x23CB5	𣲵 (<CJK Ideograph Extension B>)
 2238	0x7958	祘 (<CJK Ideograph>)
 2239	0x84A8	蒨 (<CJK Ideograph>)
 2240	0x26B96	𦮖 (<CJK Ideograph Extension B>)
 2241	0x26E77	𦹷 (<CJK Ideograph Extension B>)
 2242	0x26E43	𦹃 (<CJK Ideograph Extension B>)
 2243	0x84DE	蓞 (<CJK Ideograph>)
 2244	0x840F	萏 (<CJK Ideograph>)
 2245	0x8391	莑 (<CJK Ideograph>)
 2246	0x44A0	䒠 (<CJK Ideograph Extension A>)
 2247	0x8493	蒓 (<CJK Ideograph>)
 2248	0x84E4	蓤 (<CJK Ideograph>)
 2249	0x25C91	𥲑 (<CJK Ideograph Extension B>)
 2250	0x4240	䉀 (<CJK Ideograph Extension A>)
 2251	0x25CC0	𥳀 (<CJK Ideograph Extension B>)
 2252	0x4543	䕃 (<CJK Ideograph Extension A>)
 2253	0x8534	蔴 (<CJK Ideograph>)
 2254	0x5AF2	嫲 (<CJK Ideograph>)
 2255	0x26E99	𦺙 (<CJK Ideograph Extension B>)
 2256	0x4527	䔧 (<CJK Ideograph Extension A>)
 2257	0x8573	蕳 (<CJK Ideograph>)
 2258	0x4516	䔖 (<CJK Ideograph Extension A>)
 2259	0x67BF	枿 (<CJK Ideograph>)
 2260	0x8616	蘖 (<CJK Ideograph>)
 2261	0x28625	𨘥 (<CJK Ideograph Extension B>)
 2262	0x2863B	𨘻 (<CJK Ideograph Extension B>)
 2263	0x85C1	藁 (<CJK Ideograph>)
 2264	0x27088	𧂈 (<CJK Ideograph Extension B>)
 2265	0x8602	蘂 (<CJK Ideograph>)
 2266	0x21582	𡖂 (<CJK Ideograph Extension B>)
 2267	0x270CD	𧃍 (<CJK Ideograph Extension B>)
 2268	0x2F9B2	䕫 (CJK COMPATIBILITY IDEOGRAPH-2F9B2)
 2269	0x456A	䕪 (<CJK Ideograph Extension A>)
 2270	0x8628	蘨 (<CJK Ideograph>)
 2271	0x3648	㙈 (<CJK Ideograph Extension A>)
 2272	0x218A2	𡢢 (<CJK Ideograph Extension B>)
 2273	0x53F7	号 (<CJK Ideograph>)
 2274	0x2739A	𧎚 (<CJK Ideograph Extension B>)
 2275	0x867E	虾 (<CJK Ideograph>)
 2276	0x8771	蝱 (<CJK Ideograph>)
 2277	0x2A0F8	𪃸 (<CJK Ideograph Extension B>)
 2278	0x87EE	蟮 (<CJK Ideograph>)
 2279	0x22C27	𢰧 (<CJK Ideograph Extension B>)
 2280	0x87B1	螱 (<CJK Ideograph>)
 2281	0x87DA	蟚 (<CJK Ideograph>)
 2282	0x880F	蠏 (<CJK Ideograph>)
 2283	0x5661	噡 (<CJK Ideograph>)
 2284	0x866C	虬 (<CJK Ideograph>)
 2285	0x6856	桖 (<CJK Ideograph>)
 2286	0x460F	䘏 (<CJK Ideograph Extension A>)
 2287	0x8845	衅 (<CJK Ideograph>)
 2288	0x8846	衆 (<CJK Ideograph>)
 2289	0x275E0	𧗠 (<CJK Ideograph Extension B>)
 2290	0x23DB9	𣶹 (<CJK Ideograph Extension B>)
 2291	0x275E4	𧗤 (<CJK Ideograph Extension B>)
 2292	0x885E	衞 (<CJK Ideograph>)
 2293	0x889C	袜 (<CJK Ideograph>)
 2294	0x465B	䙛 (<CJK Ideograph Extension A>)
 2295	0x88B4	袴 (<CJK Ideograph>)
 2296	0x88B5	袵 (<CJK Ideograph>)
 2297	0x63C1	揁 (<CJK Ideograph>)
 2298	0x88C5	装 (<CJK Ideograph>)
 2299	0x7777	睷 (<CJK Ideograph>)
 2300	0x2770F	𧜏 (<CJK Ideograph Extension B>)
 2301	0x8987	覇 (<CJK Ideograph>)
 2302	0x898A	覊 (<CJK Ideograph>)
 2303	0x89A6	覦 (<CJK Ideograph>)
 2304	0x89A9	覩 (<CJK Ideograph>)
 2305	0x89A7	覧 (<CJK Ideograph>)
 2306	0x89BC	覼 (<CJK Ideograph>)
 2307	0x28A25	𨨥 (<CJK Ideograph Extension B>)
 2308	0x89E7	觧 (<CJK Ideograph>)
 2309	0x27924	𧤤 (<CJK Ideograph Extension B>)
 2310	0x27ABD	𧪽 (<CJK Ideograph Extension B>)
 2311	0x8A9C	誜 (<CJK Ideograph>)
 2312	0x7793	瞓 (<CJK Ideograph>)
 2313	0x91FE	釾 (<CJK Ideograph>)
 2314	0x8A90	誐 (<CJK Ideograph>)
 2315	0x27A59	𧩙 (<CJK Ideograph Extension B>)
 2316	0x7AE9	竩 (<CJK Ideograph>)
 2317	0x27B3A	𧬺 (<CJK Ideograph Extension B>)
 2318	0x23F8F	𣾏 (<CJK Ideograph Extension B>)
 2319	0x4713	䜓 (<CJK Ideograph Extension A>)
 2320	0x27B38	𧬸 (<CJK Ideograph Extension B>)
 2321	0x717C	煼 (<CJK Ideograph>)
 2322	0x8B0C	謌 (<CJK Ideograph>)
 2323	0x8B1F	謟 (<CJK Ideograph>)
 2324	0x25430	𥐰 (<CJK Ideograph Extension B>)
 2325	0x25565	𥕥 (<CJK Ideograph Extension B>)
 2326	0x8B3F	謿 (<CJK Ideograph>)
 2327	0x8B4C	譌 (<CJK Ideograph>)
 2328	0x8B4D	譍 (<CJK Ideograph>)
 2329	0x8AA9	誩 (<CJK Ideograph>)
 2330	0x24A7A	𤩺 (<CJK Ideograph Extension B>)
 2331	0x8B90	讐 (<CJK Ideograph>)
 2332	0x8B9B	讛 (<CJK Ideograph>)
 2333	0x8AAF	誯 (<CJK Ideograph>)
 2334	0x216DF	𡛟 (<CJK Ideograph Extension B>)
 2335	0x4615	䘕 (<CJK Ideograph Extension A>)
 2336	0x884F	衏 (<CJK Ideograph>)
 2337	0x8C9B	貛 (<CJK Ideograph>)
 2338	0x27D54	𧵔 (<CJK Ideograph Extension B>)
 2339	0x27D8F	𧶏 (<CJK Ideograph Extension B>)
 2340	0x2F9D4	貫 (CJK COMPATIBILITY IDEOGRAPH-2F9D4)
 2341	0x3725	㜥 (<CJK Ideograph Extension A>)
 2342	0x27D53	𧵓 (<CJK Ideograph Extension B>)
 2343	0x8CD6	賖 (<CJK Ideograph>)
 2344	0x27D98	𧶘 (<CJK Ideograph Extension B>)
 2345	0x27DBD	𧶽 (<CJK Ideograph Extension B>)
 2346	0x8D12	贒 (<CJK Ideograph>)
 2347	0x8D03	贃 (<CJK Ideograph>)
 2348	0x21910	𡤐 (<CJK Ideograph Extension B>)
 2349	0x8CDB	賛 (<CJK Ideograph>)
 2350	0x705C	灜 (<CJK Ideograph>)
 2351	0x8D11	贑 (<CJK Ideograph>)
 2352	0x24CC9	𤳉 (<CJK Ideograph Extension B>)
 2353	0x3ED0	㻐 (<CJK Ideograph Extension A>)
 2354	0x8D77	起 (<CJK Ideograph>)
"#

/-- encoding_tables/whatwg/index-big5.txt:1265-1421 -/
noncomputable def index15 : List Text := lines! r#" 2355	0x8DA9	趩 (<CJK Ideograph>)
 2356	0x28002	𨀂 (<CJK Ideograph Extension B>)
 2357	0x21014	𡀔 (<CJK Ideograph Extension B>)
 2358	0x2498A	𤦊 (<CJK Ideograph Extension B>)
 2359	0x3B7C	㭼 (<CJK Ideograph Extension A>)
 2360	0x281BC	𨆼 (<CJK Ideograph Extension B>)
 2361	0x2710C	𧄌 (<CJK Ideograph Extension B>)
 2362	0x7AE7	竧 (<CJK Ideograph>)
 2363	0x8EAD	躭 (<CJK Ideograph>)
 2364	0x8EB6	躶 (<CJK Ideograph>)
 2365	0x8EC3	軃 (<CJK Ideograph>)
 2366	0x92D4	鋔 (<CJK Ideograph>)
 2367	0x8F19	輙 (<CJK Ideograph>)
 2368	0x8F2D	輭 (<CJK Ideograph>)
 2369	0x28365	𨍥 (<CJK Ideograph Extension B>)
 2370	0x28412	𨐒 (<CJK Ideograph Extension B>)
 2371	0x8FA5	辥 (<CJK Ideograph>)
 2372	0x9303	錃 (<CJK Ideograph>)
 2373	0x2A29F	𪊟 (<CJK Ideograph Extension B>)
 2374	0x20A50	𠩐 (<CJK Ideograph Extension B>)
 2375	0x8FB3	辳 (<CJK Ideograph>)
 2376	0x492A	䤪 (<CJK Ideograph Extension A>)
 2377	0x289DE	𨧞 (<CJK Ideograph Extension B>)
 2378	0x2853D	𨔽 (<CJK Ideograph Extension B>)
 2379	0x23DBB	𣶻 (<CJK Ideograph Extension B>)
 2380	0x5EF8	廸 (<CJK Ideograph>)
 2381	0x23262	𣉢 (<CJK Ideograph Extension B>)
 2382	0x8FF9	迹 (<CJK Ideograph>)
 2383	0x2A014	𪀔 (<CJK Ideograph Extension B>)
 2384	0x286BC	𨚼 (<CJK Ideograph Extension B>)
 2385	0x28501	𨔁 (<CJK Ideograph Extension B>)
 2386	0x22325	𢌥 (<CJK Ideograph Extension B>)
 2387	0x3980	㦀 (<CJK Ideograph Extension A>)
 2388	0x26ED7	𦻗 (<CJK Ideograph Extension B>)
 2389	0x9037	逷 (<CJK Ideograph>)
 2390	0x2853C	𨔼 (<CJK Ideograph Extension B>)
 2391	0x27ABE	𧪾 (<CJK Ideograph Extension B>)
 2392	0x9061	遡 (<CJK Ideograph>)
 2393	0x2856C	𨕬 (<CJK Ideograph Extension B>)
 2394	0x2860B	𨘋 (<CJK Ideograph Extension B>)
 2395	0x90A8	邨 (<CJK Ideograph>)
 2396	0x28713	𨜓 (<CJK Ideograph Extension B>)
 2397	0x90C4	郄 (<CJK Ideograph>)
 2398	0x286E6	𨛦 (<CJK Ideograph Extension B>)
 2399	0x90AE	邮 (<CJK Ideograph>)
 2400	0x90FD	都 (<CJK Ideograph>)
 2401	0x9167	酧 (<CJK Ideograph>)
 2402	0x3AF0	㫰 (<CJK Ideograph Extension A>)
 2403	0x91A9	醩 (<CJK Ideograph>)
 2404	0x91C4	釄 (<CJK Ideograph>)
 2405	0x7CAC	粬 (<CJK Ideograph>)
 2406	0x28933	𨤳 (<CJK Ideograph Extension B>)
 2407	0x21E89	𡺉 (<CJK Ideograph Extension B>)
 2408	0x920E	鈎 (<CJK Ideograph>)
 2409	0x6C9F	沟 (<CJK Ideograph>)
 2410	0x9241	鉁 (<CJK Ideograph>)
 2411	0x9262	鉢 (<CJK Ideograph>)
 2412	0x255B9	𥖹 (<CJK Ideograph Extension B>)
 2413	0x92B9	銹 (<CJK Ideograph>)
 2414	0x28AC6	𨫆 (<CJK Ideograph Extension B>)
 2415	0x23C9B	𣲛 (<CJK Ideograph Extension B>)
 2416	0x28B0C	𨬌 (<CJK Ideograph Extension B>)
 2417	0x255DB	𥗛 (<CJK Ideograph Extension B>)
 2418	0x20D31	𠴱 (<CJK Ideograph Extension B>)
 2419	0x932C	錬 (<CJK Ideograph>)
 2420	0x936B	鍫 (<CJK Ideograph>)
 2421	0x28AE1	𨫡 (<CJK Ideograph Extension B>)
 2422	0x28BEB	𨯫 (<CJK Ideograph Extension B>)
 2423	0x708F	炏 (<CJK Ideograph>)
 2424	0x5AC3	嫃 (<CJK Ideograph>)
 2425	0x28AE2	𨫢 (<CJK Ideograph Extension B>)
 2426	0x28AE5	𨫥 (<CJK Ideograph Extension B>)
 2427	0x4965	䥥 (<CJK Ideograph Extension A>)
 2428	0x9244	鉄 (<CJK Ideograph>)
 2429	0x28BEC	𨯬 (<CJK Ideograph Extension B>)
 2430	0x28C39	𨰹 (<CJK Ideograph Extension B>)
 2431	0x28BFF	𨯿 (<CJK Ideograph Extension B>)
 2432	0x9373	鍳 (<CJK Ideograph>)
 2433	0x945B	鑛 (<CJK Ideograph>)
 2434	0x8EBC	躼 (<CJK Ideograph>)
 2435	0x9585	閅 (<CJK Ideograph>)
 2436	0x95A6	閦 (<CJK Ideograph>)
 2437	0x9426	鐦 (<CJK Ideograph>)
 2438	0x95A0	閠 (<CJK Ideograph>)
 2439	0x6FF6	濶 (<CJK Ideograph>)
 2440	0x42B9	䊹 (<CJK Ideograph Extension A>)
 2441	0x2267A	𢙺 (<CJK Ideograph Extension B>)
 2442	0x286D8	𨛘 (<CJK Ideograph Extension B>)
 2443	0x2127C	𡉼 (<CJK Ideograph Extension B>)
 2444	0x23E2E	𣸮 (<CJK Ideograph Extension B>)
 2445	0x49DF	䧟 (<CJK Ideograph Extension A>)
 2446	0x6C1C	氜 (<CJK Ideograph>)
 2447	0x967B	陻 (<CJK Ideograph>)
 2448	0x9696	隖 (<CJK Ideograph>)
 2449	0x416C	䅬 (<CJK Ideograph Extension A>)
 2450	0x96A3	隣 (<CJK Ideograph>)
 2451	0x26ED5	𦻕 (<CJK Ideograph Extension B>)
 2452	0x61DA	懚 (<CJK Ideograph>)
 2453	0x96B6	隶 (<CJK Ideograph>)
 2454	0x78F5	磵 (<CJK Ideograph>)
 2455	0x28AE0	𨫠 (<CJK Ideograph Extension B>)
 2456	0x96BD	隽 (<CJK Ideograph>)
 2457	0x53CC	双 (<CJK Ideograph>)
 2458	0x49A1	䦡 (<CJK Ideograph Extension A>)
 2459	0x26CB8	𦲸 (<CJK Ideograph Extension B>)
 2460	0x20274	𠉴 (<CJK Ideograph Extension B>)
 2461	0x26410	𦐐 (<CJK Ideograph Extension B>)
 2462	0x290AF	𩂯 (<CJK Ideograph Extension B>)
 2463	0x290E5	𩃥 (<CJK Ideograph Extension B>)
 2464	0x24AD1	𤫑 (<CJK Ideograph Extension B>)
 2465	0x21915	𡤕 (<CJK Ideograph Extension B>)
 2466	0x2330A	𣌊 (<CJK Ideograph Extension B>)
 2467	0x9731	霱 (<CJK Ideograph>)
 2468	0x8642	虂 (<CJK Ideograph>)
 2469	0x9736	霶 (<CJK Ideograph>)
 2470	0x4A0F	䨏 (<CJK Ideograph Extension A>)
 2471	0x453D	䔽 (<CJK Ideograph Extension A>)
 2472	0x4585	䖅 (<CJK Ideograph Extension A>)
 2473	0x24AE9	𤫩 (<CJK Ideograph Extension B>)
 2474	0x7075	灵 (<CJK Ideograph>)
 2475	0x5B41	孁 (<CJK Ideograph>)
 2476	0x971B	霛 (<CJK Ideograph>)
 2477	0x975C	靜 (<CJK Ideograph>)
 2478	0x291D5	𩇕 (<CJK Ideograph Extension B>)
 2479	0x9757	靗 (<CJK Ideograph>)
 2480	0x5B4A	孊 (<CJK Ideograph>)
 2481	0x291EB	𩇫 (<CJK Ideograph Extension B>)
 2482	0x975F	靟 (<CJK Ideograph>)
 2483	0x9425	鐥 (<CJK Ideograph>)
 2484	0x50D0	僐 (<CJK Ideograph>)
 2485	0x230B7	𣂷 (<CJK Ideograph Extension B>)
 2486	0x230BC	𣂼 (<CJK Ideograph Extension B>)
 2487	0x9789	鞉 (<CJK Ideograph>)
 2488	0x979F	鞟 (<CJK Ideograph>)
 2489	0x97B1	鞱 (<CJK Ideograph>)
 2490	0x97BE	鞾 (<CJK Ideograph>)
 2491	0x97C0	韀 (<CJK Ideograph>)
 2492	0x97D2	韒 (<CJK Ideograph>)
 2493	0x97E0	韠 (<CJK Ideograph>)
 2494	0x2546C	𥑬 (<CJK Ideograph Extension B>)
 2495	0x97EE	韮 (<CJK Ideograph>)
 2496	0x741C	琜 (<CJK Ideograph>)
 2497	0x29433	𩐳 (<CJK Ideograph Extension B>)
 2498	0x97FF	響 (<CJK Ideograph>)
 2499	0x97F5	韵 (<CJK Ideograph>)
 2500	0x2941D	𩐝 (<CJK Ideograph Extension B>)
 2501	0x2797A	𧥺 (<CJK Ideograph Extension B>)
 2502	0x4AD1	䫑 (<CJK Ideograph Extension A>)
 2503	0x9834	頴 (<CJK Ideograph>)
 2504	0x9833	頳 (<CJK Ideograph>)
 2505	0x984B	顋 (<CJK Ideograph>)
 2506	0x9866	顦 (<CJK Ideograph>)
 2507	0x3B0E	㬎 (<CJK Ideograph Extension A>)
 2508	0x27175	𧅵 (<CJK Ideograph Extension B>)
 2509	0x3D51	㵑 (<CJK Ideograph Extension A>)
 2510	0x20630	𠘰 (<CJK Ideograph Extension B>)
 2511	0x2415C	𤅜 (<CJK Ideograph Extension B>)
"#

/-- encoding_tables/whatwg/index-big5.txt:1422-1578 -/
noncomputable def index16 : List Text := lines! r#" 2512	0x25706	𥜆 (<CJK Ideograph Extension B>)
 2513	0x98CA	飊 (<CJK Ideograph>)
 2514	0x98B7	颷 (<CJK Ideograph>)
 2515	0x98C8	飈 (<CJK Ideograph>)
 2516	0x98C7	飇 (<CJK Ideograph>)
 2517	0x4AFF	䫿 (<CJK Ideograph Extension A>)
 2518	0x26D27	𦴧 (<CJK Ideograph Extension B>)
 2519	0x216D3	𡛓 (<CJK Ideograph Extension B>)
 2520	0x55B0	喰 (<CJK Ideograph>)
 2521	0x98E1	飡 (<CJK Ideograph>)
 2522	0x98E6	飦 (<CJK Ideograph>)
 2523	0x98EC	飬 (<CJK Ideograph>)
 2524	0x9378	鍸 (<CJK Ideograph>)
 2525	0x9939	餹 (<CJK Ideograph>)
 2526	0x24A29	𤨩 (<CJK Ideograph Extension B>)
 2527	0x4B72	䭲 (<CJK Ideograph Extension A>)
 2528	0x29857	𩡗 (<CJK Ideograph Extension B>)
 2529	0x29905	𩤅 (<CJK Ideograph Extension B>)
 2530	0x99F5	駵 (<CJK Ideograph>)
 2531	0x9A0C	騌 (<CJK Ideograph>)
 2532	0x9A3B	騻 (<CJK Ideograph>)
 2533	0x9A10	騐 (<CJK Ideograph>)
 2534	0x9A58	驘 (<CJK Ideograph>)
 2535	0x25725	𥜥 (<CJK Ideograph Extension B>)
 2536	0x36C4	㛄 (<CJK Ideograph Extension A>)
 2537	0x290B1	𩂱 (<CJK Ideograph Extension B>)
 2538	0x29BD5	𩯕 (<CJK Ideograph Extension B>)
 2539	0x9AE0	髠 (<CJK Ideograph>)
 2540	0x9AE2	髢 (<CJK Ideograph>)
 2541	0x29B05	𩬅 (<CJK Ideograph Extension B>)
 2542	0x9AF4	髴 (<CJK Ideograph>)
 2543	0x4C0E	䰎 (<CJK Ideograph Extension A>)
 2544	0x9B14	鬔 (<CJK Ideograph>)
 2545	0x9B2D	鬭 (<CJK Ideograph>)
 2546	0x28600	𨘀 (<CJK Ideograph Extension B>)
 2547	0x5034	倴 (<CJK Ideograph>)
 2548	0x9B34	鬴 (<CJK Ideograph>)
 2549	0x269A8	𦦨 (<CJK Ideograph Extension B>)
 2550	0x38C3	㣃 (<CJK Ideograph Extension A>)
 2551	0x2307D	𣁽 (<CJK Ideograph Extension B>)
 2552	0x9B50	魐 (<CJK Ideograph>)
 2553	0x9B40	魀 (<CJK Ideograph>)
 2554	0x29D3E	𩴾 (<CJK Ideograph Extension B>)
 2555	0x5A45	婅 (<CJK Ideograph>)
 2556	0x21863	𡡣 (<CJK Ideograph Extension B>)
 2557	0x9B8E	鮎 (<CJK Ideograph>)
 2558	0x2424B	𤉋 (<CJK Ideograph Extension B>)
 2559	0x9C02	鰂 (<CJK Ideograph>)
 2560	0x9BFF	鯿 (<CJK Ideograph>)
 2561	0x9C0C	鰌 (<CJK Ideograph>)
 2562	0x29E68	𩹨 (<CJK Ideograph Extension B>)
 2563	0x9DD4	鷔 (<CJK Ideograph>)
 2564	0x29FB7	𩾷 (<CJK Ideograph Extension B>)
 2565	0x2A192	𪆒 (<CJK Ideograph Extension B>)
 2566	0x2A1AB	𪆫 (<CJK Ideograph Extension B>)
 2567	0x2A0E1	𪃡 (<CJK Ideograph Extension B>)
 2568	0x2A123	𪄣 (<CJK Ideograph Extension B>)
 2569	0x2A1DF	𪇟 (<CJK Ideograph Extension B>)
 2570	0x9D7E	鵾 (<CJK Ideograph>)
 2571	0x9D83	鶃 (<CJK Ideograph>)
 2572	0x2A134	𪄴 (<CJK Ideograph Extension B>)
 2573	0x9E0E	鸎 (<CJK Ideograph>)
 2574	0x6888	梈 (<CJK Ideograph>)
 2575	0x9DC4	鷄 (<CJK Ideograph>)
 2576	0x2215B	𢅛 (<CJK Ideograph Extension B>)
 2577	0x2A193	𪆓 (<CJK Ideograph Extension B>)
 2578	0x2A220	𪈠 (<CJK Ideograph Extension B>)
 2579	0x2193B	𡤻 (<CJK Ideograph Extension B>)
 2580	0x2A233	𪈳 (<CJK Ideograph Extension B>)
 2581	0x9D39	鴹 (<CJK Ideograph>)
 2582	0x2A0B9	𪂹 (<CJK Ideograph Extension B>)
 2583	0x2A2B4	𪊴 (<CJK Ideograph Extension B>)
 2584	0x9E90	麐 (<CJK Ideograph>)
 2585	0x9E95	麕 (<CJK Ideograph>)
 2586	0x9E9E	麞 (<CJK Ideograph>)
 2587	0x9EA2	麢 (<CJK Ideograph>)
 2588	0x4D34	䴴 (<CJK Ideograph Extension A>)
 2589	0x9EAA	麪 (<CJK Ideograph>)
 2590	0x9EAF	麯 (<CJK Ideograph>)
 2591	0x24364	𤍤 (<CJK Ideograph Extension B>)
 2592	0x9EC1	黁 (<CJK Ideograph>)
 2593	0x3B60	㭠 (<CJK Ideograph Extension A>)
 2594	0x39E5	㧥 (<CJK Ideograph Extension A>)
 2595	0x3D1D	㴝 (<CJK Ideograph Extension A>)
 2596	0x4F32	伲 (<CJK Ideograph>)
 2597	0x37BE	㞾 (<CJK Ideograph Extension A>)
 2598	0x28C2B	𨰫 (<CJK Ideograph Extension B>)
 2599	0x9F02	鼂 (<CJK Ideograph>)
 2600	0x9F08	鼈 (<CJK Ideograph>)
 2601	0x4B96	䮖 (<CJK Ideograph Extension A>)
 2602	0x9424	鐤 (<CJK Ideograph>)
 2603	0x26DA2	𦶢 (<CJK Ideograph Extension B>)
 2604	0x9F17	鼗 (<CJK Ideograph>)
 2605	0x9F16	鼖 (<CJK Ideograph>)
 2606	0x9F39	鼹 (<CJK Ideograph>)
 2607	0x569F	嚟 (<CJK Ideograph>)
 2608	0x568A	嚊 (<CJK Ideograph>)
 2609	0x9F45	齅 (<CJK Ideograph>)
 2610	0x99B8	馸 (<CJK Ideograph>)
 2611	0x2908B	𩂋 (<CJK Ideograph Extension B>)
 2612	0x97F2	韲 (<CJK Ideograph>)
 2613	0x847F	葿 (<CJK Ideograph>)
 2614	0x9F62	齢 (<CJK Ideograph>)
 2615	0x9F69	齩 (<CJK Ideograph>)
 2616	0x7ADC	竜 (<CJK Ideograph>)
 2617	0x9F8E	龎 (<CJK Ideograph>)
 2618	0x7216	爖 (<CJK Ideograph>)
 2619	0x4BBE	䮾 (<CJK Ideograph Extension A>)
 2620	0x24975	𤥵 (<CJK Ideograph Extension B>)
 2621	0x249BB	𤦻 (<CJK Ideograph Extension B>)
 2622	0x7177	煷 (<CJK Ideograph>)
 2623	0x249F8	𤧸 (<CJK Ideograph Extension B>)
 2624	0x24348	𤍈 (<CJK Ideograph Extension B>)
 2625	0x24A51	𤩑 (<CJK Ideograph Extension B>)
 2626	0x739E	玞 (<CJK Ideograph>)
 2627	0x28BDA	𨯚 (<CJK Ideograph Extension B>)
 2628	0x218FA	𡣺 (<CJK Ideograph Extension B>)
 2629	0x799F	禟 (<CJK Ideograph>)
 2630	0x2897E	𨥾 (<CJK Ideograph Extension B>)
 2631	0x28E36	𨸶 (<CJK Ideograph Extension B>)
 2632	0x9369	鍩 (<CJK Ideograph>)
 2633	0x93F3	鏳 (<CJK Ideograph>)
 2634	0x28A44	𨩄 (<CJK Ideograph Extension B>)
 2635	0x92EC	鋬 (<CJK Ideograph>)
 2636	0x9381	鎁 (<CJK Ideograph>)
 2637	0x93CB	鏋 (<CJK Ideograph>)
 2638	0x2896C	𨥬 (<CJK Ideograph Extension B>)
 2639	0x244B9	𤒹 (<CJK Ideograph Extension B>)
 2640	0x7217	爗 (<CJK Ideograph>)
 2641	0x3EEB	㻫 (<CJK Ideograph Extension A>)
 2642	0x7772	睲 (<CJK Ideograph>)
 2643	0x7A43	穃 (<CJK Ideograph>)
 2644	0x70D0	烐 (<CJK Ideograph>)
 2645	0x24473	𤑳 (<CJK Ideograph Extension B>)
 2646	0x243F8	𤏸 (<CJK Ideograph Extension B>)
 2647	0x717E	煾 (<CJK Ideograph>)
 2648	0x217EF	𡟯 (<CJK Ideograph Extension B>)
 2649	0x70A3	炣 (<CJK Ideograph>)
 2650	0x218BE	𡢾 (<CJK Ideograph Extension B>)
 2651	0x23599	𣖙 (<CJK Ideograph Extension B>)
 2652	0x3EC7	㻇 (<CJK Ideograph Extension A>)
 2653	0x21885	𡢅 (<CJK Ideograph Extension B>)
 2654	0x2542F	𥐯 (<CJK Ideograph Extension B>)
 2655	0x217F8	𡟸 (<CJK Ideograph Extension B>)
 2656	0x3722	㜢 (<CJK Ideograph Extension A>)
 2657	0x216FB	𡛻 (<CJK Ideograph Extension B>)
 2658	0x21839	𡠹 (<CJK Ideograph Extension B>)
 2659	0x36E1	㛡 (<CJK Ideograph Extension A>)
 2660	0x21774	𡝴 (<CJK Ideograph Extension B>)
 2661	0x218D1	𡣑 (<CJK Ideograph Extension B>)
 2662	0x25F4B	𥽋 (<CJK Ideograph Extension B>)
 2663	0x3723	㜣 (<CJK Ideograph Extension A>)
 2664	0x216C0	𡛀 (<CJK Ideograph Extension B>)
 2665	0x575B	坛 (<CJK Ideograph>)
 2666	0x24A25	𤨥 (<CJK Ideograph Extension B>)
 2667	0x213FE	𡏾 (<CJK Ideograph Extension B>)
 2668	0x212A8	𡊨 (<CJK Ideograph Extension B>)
"#

/-- encoding_tables/whatwg/index-big5.txt:1579-1735 -/
noncomputable def index17 : List Text := lines! r#" 2669	0x213C6	𡏆 (<CJK Ideograph Extension B>)
 2670	0x214B6	𡒶 (<CJK Ideograph Extension B>)
 2671	0x8503	蔃 (<CJK Ideograph>)
 2672	0x236A6	𣚦 (<CJK Ideograph Extension B>)
 2673	0x8503	蔃 (<CJK Ideograph>)
 2674	0x8455	葕 (<CJK Ideograph>)
 2675	0x24994	𤦔 (<CJK Ideograph Extension B>)
 2676	0x27165	𧅥 (<CJK Ideograph Extension B>)
 2677	0x23E31	𣸱 (<CJK Ideograph Extension B>)
 2678	0x2555C	𥕜 (<CJK Ideograph Extension B>)
 2679	0x23EFB	𣻻 (<CJK Ideograph Extension B>)
 2680	0x27052	𧁒 (<CJK Ideograph Extension B>)
 2681	0x44F4	䓴 (<CJK Ideograph Extension A>)
 2682	0x236EE	𣛮 (<CJK Ideograph Extension B>)
 2683	0x2999D	𩦝 (<CJK Ideograph Extension B>)
 2684	0x26F26	𦼦 (<CJK Ideograph Extension B>)
 2685	0x67F9	柹 (<CJK Ideograph>)
 2686	0x3733	㜳 (<CJK Ideograph Extension A>)
 2687	0x3C15	㰕 (<CJK Ideograph Extension A>)
 2688	0x3DE7	㷧 (<CJK Ideograph Extension A>)
 2689	0x586C	塬 (<CJK Ideograph>)
 2690	0x21922	𡤢 (<CJK Ideograph Extension B>)
 2691	0x6810	栐 (<CJK Ideograph>)
 2692	0x4057	䁗 (<CJK Ideograph Extension A>)
 2693	0x2373F	𣜿 (<CJK Ideograph Extension B>)
 2694	0x240E1	𤃡 (<CJK Ideograph Extension B>)
 2695	0x2408B	𤂋 (<CJK Ideograph Extension B>)
 2696	0x2410F	𤄏 (<CJK Ideograph Extension B>)
 2697	0x26C21	𦰡 (<CJK Ideograph Extension B>)
 2698	0x54CB	哋 (<CJK Ideograph>)
 2699	0x569E	嚞 (<CJK Ideograph>)
 2700	0x266B1	𦚱 (<CJK Ideograph Extension B>)
 2701	0x5692	嚒 (<CJK Ideograph>)
 2702	0x20FDF	𠿟 (<CJK Ideograph Extension B>)
 2703	0x20BA8	𠮨 (<CJK Ideograph Extension B>)
 2704	0x20E0D	𠸍 (<CJK Ideograph Extension B>)
 2705	0x93C6	鏆 (<CJK Ideograph>)
 2706	0x28B13	𨬓 (<CJK Ideograph Extension B>)
 2707	0x939C	鎜 (<CJK Ideograph>)
 2708	0x4EF8	仸 (<CJK Ideograph>)
 2709	0x512B	儫 (<CJK Ideograph>)
 2710	0x3819	㠙 (<CJK Ideograph Extension A>)
 2711	0x24436	𤐶 (<CJK Ideograph Extension B>)
 2712	0x4EBC	亼 (<CJK Ideograph>)
 2713	0x20465	𠑥 (<CJK Ideograph Extension B>)
 2714	0x2037F	𠍿 (<CJK Ideograph Extension B>)
 2715	0x4F4B	佋 (<CJK Ideograph>)
 2716	0x4F8A	侊 (<CJK Ideograph>)
 2717	0x25651	𥙑 (<CJK Ideograph Extension B>)
 2718	0x5A68	婨 (<CJK Ideograph>)
 2719	0x201AB	𠆫 (<CJK Ideograph Extension B>)
 2720	0x203CB	𠏋 (<CJK Ideograph Extension B>)
 2721	0x3999	㦙 (<CJK Ideograph Extension A>)
 2722	0x2030A	𠌊 (<CJK Ideograph Extension B>)
 2723	0x20414	𠐔 (<CJK Ideograph Extension B>)
 2724	0x3435	㐵 (<CJK Ideograph Extension A>)
 2725	0x4F29	伩 (<CJK Ideograph>)
 2726	0x202C0	𠋀 (<CJK Ideograph Extension B>)
 2727	0x28EB3	𨺳 (<CJK Ideograph Extension B>)
 2728	0x20275	𠉵 (<CJK Ideograph Extension B>)
 2729	0x8ADA	諚 (<CJK Ideograph>)
 2730	0x2020C	𠈌 (<CJK Ideograph Extension B>)
 2731	0x4E98	亘 (<CJK Ideograph>)
 2732	0x50CD	働 (<CJK Ideograph>)
 2733	0x510D	儍 (<CJK Ideograph>)
 2734	0x4FA2	侢 (<CJK Ideograph>)
 2735	0x4F03	伃 (<CJK Ideograph>)
 2736	0x24A0E	𤨎 (<CJK Ideograph Extension B>)
 2737	0x23E8A	𣺊 (<CJK Ideograph Extension B>)
 2738	0x4F42	佂 (<CJK Ideograph>)
 2739	0x502E	倮 (<CJK Ideograph>)
 2740	0x506C	偬 (<CJK Ideograph>)
 2741	0x5081	傁 (<CJK Ideograph>)
 2742	0x4FCC	俌 (<CJK Ideograph>)
 2743	0x4FE5	俥 (<CJK Ideograph>)
 2744	0x5058	偘 (<CJK Ideograph>)
 2745	0x50FC	僼 (<CJK Ideograph>)
 2746	0x5159	兙 (<CJK Ideograph>)
 2747	0x515B	兛 (<CJK Ideograph>)
 2748	0x515D	兝 (<CJK Ideograph>)
 2749	0x515E	兞 (<CJK Ideograph>)
 2750	0x6E76	湶 (<CJK Ideograph>)
 2751	0x23595	𣖕 (<CJK Ideograph Extension B>)
 2752	0x23E39	𣸹 (<CJK Ideograph Extension B>)
 2753	0x23EBF	𣺿 (<CJK Ideograph Extension B>)
 2754	0x6D72	浲 (<CJK Ideograph>)
 2755	0x21884	𡢄 (<CJK Ideograph Extension B>)
 2756	0x23E89	𣺉 (<CJK Ideograph Extension B>)
 2757	0x51A8	冨 (<CJK Ideograph>)
 2758	0x51C3	凃 (<CJK Ideograph>)
 2759	0x205E0	𠗠 (<CJK Ideograph Extension B>)
 2760	0x44DD	䓝 (<CJK Ideograph Extension A>)
 2761	0x204A3	𠒣 (<CJK Ideograph Extension B>)
 2762	0x20492	𠒒 (<CJK Ideograph Extension B>)
 2763	0x20491	𠒑 (<CJK Ideograph Extension B>)
 2764	0x8D7A	赺 (<CJK Ideograph>)
 2765	0x28A9C	𨪜 (<CJK Ideograph Extension B>)
 2766	0x2070E	𠜎 (<CJK Ideograph Extension B>)
 2767	0x5259	剙 (<CJK Ideograph>)
 2768	0x52A4	劤 (<CJK Ideograph>)
 2769	0x20873	𠡳 (<CJK Ideograph Extension B>)
 2770	0x52E1	勡 (<CJK Ideograph>)
 2771	0x936E	鍮 (<CJK Ideograph>)
 2772	0x467A	䙺 (<CJK Ideograph Extension A>)
 2773	0x718C	熌 (<CJK Ideograph>)
 2774	0x2438C	𤎌 (<CJK Ideograph Extension B>)
 2775	0x20C20	𠰠 (<CJK Ideograph Extension B>)
 2776	0x249AC	𤦬 (<CJK Ideograph Extension B>)
 2777	0x210E4	𡃤 (<CJK Ideograph Extension B>)
 2778	0x69D1	槑 (<CJK Ideograph>)
 2779	0x20E1D	𠸝 (<CJK Ideograph Extension B>)
 2780	0x7479	瑹 (<CJK Ideograph>)
 2781	0x3EDE	㻞 (<CJK Ideograph Extension A>)
 2782	0x7499	璙 (<CJK Ideograph>)
 2783	0x7414	琔 (<CJK Ideograph>)
 2784	0x7456	瑖 (<CJK Ideograph>)
 2785	0x7398	玘 (<CJK Ideograph>)
 2786	0x4B8E	䮎 (<CJK Ideograph Extension A>)
 2787	0x24ABC	𤪼 (<CJK Ideograph Extension B>)
 2788	0x2408D	𤂍 (<CJK Ideograph Extension B>)
 2789	0x53D0	叐 (<CJK Ideograph>)
 2790	0x3584	㖄 (<CJK Ideograph Extension A>)
 2791	0x720F	爏 (<CJK Ideograph>)
 2792	0x240C9	𤃉 (<CJK Ideograph Extension B>)
 2793	0x55B4	喴 (<CJK Ideograph>)
 2794	0x20345	𠍅 (<CJK Ideograph Extension B>)
 2795	0x54CD	响 (<CJK Ideograph>)
 2796	0x20BC6	𠯆 (<CJK Ideograph Extension B>)
 2797	0x571D	圝 (<CJK Ideograph>)
 2798	0x925D	鉝 (<CJK Ideograph>)
 2799	0x96F4	雴 (<CJK Ideograph>)
 2800	0x9366	鍦 (<CJK Ideograph>)
 2801	0x57DD	埝 (<CJK Ideograph>)
 2802	0x578D	垍 (<CJK Ideograph>)
 2803	0x577F	坿 (<CJK Ideograph>)
 2804	0x363E	㘾 (<CJK Ideograph Extension A>)
 2805	0x58CB	壋 (<CJK Ideograph>)
 2806	0x5A99	媙 (<CJK Ideograph>)
 2807	0x28A46	𨩆 (<CJK Ideograph Extension B>)
 2808	0x216FA	𡛺 (<CJK Ideograph Extension B>)
 2809	0x2176F	𡝯 (<CJK Ideograph Extension B>)
 2810	0x21710	𡜐 (<CJK Ideograph Extension B>)
 2811	0x5A2C	娬 (<CJK Ideograph>)
 2812	0x59B8	妸 (<CJK Ideograph>)
 2813	0x928F	銏 (<CJK Ideograph>)
 2814	0x5A7E	婾 (<CJK Ideograph>)
 2815	0x5ACF	嫏 (<CJK Ideograph>)
 2816	0x5A12	娒 (<CJK Ideograph>)
 2817	0x25946	𥥆 (<CJK Ideograph Extension B>)
 2818	0x219F3	𡧳 (<CJK Ideograph Extension B>)
 2819	0x21861	𡡡 (<CJK Ideograph Extension B>)
 2820	0x24295	𤊕 (<CJK Ideograph Extension B>)
 2821	0x36F5	㛵 (<CJK Ideograph Extension A>)
 2822	0x6D05	洅 (<CJK Ideograph>)
 2823	0x7443	瑃 (<CJK Ideograph>)
 2824	0x5A21	娡 (<CJK Ideograph>)
 2825	0x25E83	𥺃 (<CJK Ideograph Extension B>)
"#

/-- encoding_tables/whatwg/index-big5.txt:1736-1892 -/
noncomputable def index18 : List Text := lines! r#" 2826	0x5A81	媁 (<CJK Ideograph>)
 2827	0x28BD7	𨯗 (<CJK Ideograph Extension B>)
 2828	0x20413	𠐓 (<CJK Ideograph Extension B>)
 2829	0x93E0	鏠 (<CJK Ideograph>)
 2830	0x748C	璌 (<CJK Ideograph>)
 2831	0x21303	𡌃 (<CJK Ideograph Extension B>)
 2832	0x7105	焅 (<CJK Ideograph>)
 2833	0x4972	䥲 (<CJK Ideograph Extension A>)
 2834	0x9408	鐈 (<CJK Ideograph>)
 2835	0x289FB	𨧻 (<CJK Ideograph Extension B>)
 2836	0x93BD	鎽 (<CJK Ideograph>)
 2837	0x37A0	㞠 (<CJK Ideograph Extension A>)
 2838	0x5C1E	尞 (<CJK Ideograph>)
 2839	0x5C9E	岞 (<CJK Ideograph>)
 2840	0x5E5E	幞 (<CJK Ideograph>)
 2841	0x5E48	幈 (<CJK Ideograph>)
 2842	0x21996	𡦖 (<CJK Ideograph Extension B>)
 2843	0x2197C	𡥼 (<CJK Ideograph Extension B>)
 2844	0x23AEE	𣫮 (<CJK Ideograph Extension B>)
 2845	0x5ECD	廍 (<CJK Ideograph>)
 2846	0x5B4F	孏 (<CJK Ideograph>)
 2847	0x21903	𡤃 (<CJK Ideograph Extension B>)
 2848	0x21904	𡤄 (<CJK Ideograph Extension B>)
 2849	0x3701	㜁 (<CJK Ideograph Extension A>)
 2850	0x218A0	𡢠 (<CJK Ideograph Extension B>)
 2851	0x36DD	㛝 (<CJK Ideograph Extension A>)
 2852	0x216FE	𡛾 (<CJK Ideograph Extension B>)
 2853	0x36D3	㛓 (<CJK Ideograph Extension A>)
 2854	0x812A	脪 (<CJK Ideograph>)
 2855	0x28A47	𨩇 (<CJK Ideograph Extension B>)
 2856	0x21DBA	𡶺 (<CJK Ideograph Extension B>)
 2857	0x23472	𣑲 (<CJK Ideograph Extension B>)
 2858	0x289A8	𨦨 (<CJK Ideograph Extension B>)
 2859	0x5F0C	弌 (<CJK Ideograph>)
 2860	0x5F0E	弎 (<CJK Ideograph>)
 2861	0x21927	𡤧 (<CJK Ideograph Extension B>)
 2862	0x217AB	𡞫 (<CJK Ideograph Extension B>)
 2863	0x5A6B	婫 (<CJK Ideograph>)
 2864	0x2173B	𡜻 (<CJK Ideograph Extension B>)
 2865	0x5B44	孄 (<CJK Ideograph>)
 2866	0x8614	蘔 (<CJK Ideograph>)
 2867	0x275FD	𧗽 (<CJK Ideograph Extension B>)
 2868	0x8860	衠 (<CJK Ideograph>)
 2869	0x607E	恾 (<CJK Ideograph>)
 2870	0x22860	𢡠 (<CJK Ideograph Extension B>)
 2871	0x2262B	𢘫 (<CJK Ideograph Extension B>)
 2872	0x5FDB	忛 (<CJK Ideograph>)
 2873	0x3EB8	㺸 (<CJK Ideograph Extension A>)
 2874	0x225AF	𢖯 (<CJK Ideograph Extension B>)
 2875	0x225BE	𢖾 (<CJK Ideograph Extension B>)
 2876	0x29088	𩂈 (<CJK Ideograph Extension B>)
 2877	0x26F73	𦽳 (<CJK Ideograph Extension B>)
 2878	0x61C0	懀 (<CJK Ideograph>)
 2879	0x2003E	𠀾 (<CJK Ideograph Extension B>)
 2880	0x20046	𠁆 (<CJK Ideograph Extension B>)
 2881	0x2261B	𢘛 (<CJK Ideograph Extension B>)
 2882	0x6199	憙 (<CJK Ideograph>)
 2883	0x6198	憘 (<CJK Ideograph>)
 2884	0x6075	恵 (<CJK Ideograph>)
 2885	0x22C9B	𢲛 (<CJK Ideograph Extension B>)
 2886	0x22D07	𢴇 (<CJK Ideograph Extension B>)
 2887	0x246D4	𤛔 (<CJK Ideograph Extension B>)
 2888	0x2914D	𩅍 (<CJK Ideograph Extension B>)
 2889	0x6471	摱 (<CJK Ideograph>)
 2890	0x24665	𤙥 (<CJK Ideograph Extension B>)
 2891	0x22B6A	𢭪 (<CJK Ideograph Extension B>)
 2892	0x3A29	㨩 (<CJK Ideograph Extension A>)
 2893	0x22B22	𢬢 (<CJK Ideograph Extension B>)
 2894	0x23450	𣑐 (<CJK Ideograph Extension B>)
 2895	0x298EA	𩣪 (<CJK Ideograph Extension B>)
 2896	0x22E78	𢹸 (<CJK Ideograph Extension B>)
 2897	0x6337	挷 (<CJK Ideograph>)
 2898	0x2A45B	𪑛 (<CJK Ideograph Extension B>)
 2899	0x64B6	撶 (<CJK Ideograph>)
 2900	0x6331	挱 (<CJK Ideograph>)
 2901	0x63D1	揑 (<CJK Ideograph>)
 2902	0x249E3	𤧣 (<CJK Ideograph Extension B>)
 2903	0x22D67	𢵧 (<CJK Ideograph Extension B>)
 2904	0x62A4	护 (<CJK Ideograph>)
 2905	0x22CA1	𢲡 (<CJK Ideograph Extension B>)
 2906	0x643B	搻 (<CJK Ideograph>)
 2907	0x656B	敫 (<CJK Ideograph>)
 2908	0x6972	楲 (<CJK Ideograph>)
 2909	0x3BF4	㯴 (<CJK Ideograph Extension A>)
 2910	0x2308E	𣂎 (<CJK Ideograph Extension B>)
 2911	0x232AD	𣊭 (<CJK Ideograph Extension B>)
 2912	0x24989	𤦉 (<CJK Ideograph Extension B>)
 2913	0x232AB	𣊫 (<CJK Ideograph Extension B>)
 2914	0x550D	唍 (<CJK Ideograph>)
 2915	0x232E0	𣋠 (<CJK Ideograph Extension B>)
 2916	0x218D9	𡣙 (<CJK Ideograph Extension B>)
 2917	0x2943F	𩐿 (<CJK Ideograph Extension B>)
 2918	0x66CE	曎 (<CJK Ideograph>)
 2919	0x23289	𣊉 (<CJK Ideograph Extension B>)
 2920	0x231B3	𣆳 (<CJK Ideograph Extension B>)
 2921	0x3AE0	㫠 (<CJK Ideograph Extension A>)
 2922	0x4190	䆐 (<CJK Ideograph Extension A>)
 2923	0x25584	𥖄 (<CJK Ideograph Extension B>)
 2924	0x28B22	𨬢 (<CJK Ideograph Extension B>)
 2925	0x2558F	𥖏 (<CJK Ideograph Extension B>)
 2926	0x216FC	𡛼 (<CJK Ideograph Extension B>)
 2927	0x2555B	𥕛 (<CJK Ideograph Extension B>)
 2928	0x25425	𥐥 (<CJK Ideograph Extension B>)
 2929	0x78EE	磮 (<CJK Ideograph>)
 2930	0x23103	𣄃 (<CJK Ideograph Extension B>)
 2931	0x2182A	𡠪 (<CJK Ideograph Extension B>)
 2932	0x23234	𣈴 (<CJK Ideograph Extension B>)
 2933	0x3464	㑤 (<CJK Ideograph Extension A>)
 2934	0x2320F	𣈏 (<CJK Ideograph Extension B>)
 2935	0x23182	𣆂 (<CJK Ideograph Extension B>)
 2936	0x242C9	𤋉 (<CJK Ideograph Extension B>)
 2937	0x668E	暎 (<CJK Ideograph>)
 2938	0x26D24	𦴤 (<CJK Ideograph Extension B>)
 2939	0x666B	晫 (<CJK Ideograph>)
 2940	0x4B93	䮓 (<CJK Ideograph Extension A>)
 2941	0x6630	昰 (<CJK Ideograph>)
 2942	0x27870	𧡰 (<CJK Ideograph Extension B>)
 2943	0x21DEB	𡷫 (<CJK Ideograph Extension B>)
 2944	0x6663	晣 (<CJK Ideograph>)
 2945	0x232D2	𣋒 (<CJK Ideograph Extension B>)
 2946	0x232E1	𣋡 (<CJK Ideograph Extension B>)
 2947	0x661E	昞 (<CJK Ideograph>)
 2948	0x25872	𥡲 (<CJK Ideograph Extension B>)
 2949	0x38D1	㣑 (<CJK Ideograph Extension A>)
 2950	0x2383A	𣠺 (<CJK Ideograph Extension B>)
 2951	0x237BC	𣞼 (<CJK Ideograph Extension B>)
 2952	0x3B99	㮙 (<CJK Ideograph Extension A>)
 2953	0x237A2	𣞢 (<CJK Ideograph Extension B>)
 2954	0x233FE	𣏾 (<CJK Ideograph Extension B>)
 2955	0x74D0	瓐 (<CJK Ideograph>)
 2956	0x3B96	㮖 (<CJK Ideograph Extension A>)
 2957	0x678F	枏 (<CJK Ideograph>)
 2958	0x2462A	𤘪 (<CJK Ideograph Extension B>)
 2959	0x68B6	梶 (<CJK Ideograph>)
 2960	0x681E	栞 (<CJK Ideograph>)
 2961	0x3BC4	㯄 (<CJK Ideograph Extension A>)
 2962	0x6ABE	檾 (<CJK Ideograph>)
 2963	0x3863	㡣 (<CJK Ideograph Extension A>)
 2964	0x237D5	𣟕 (<CJK Ideograph Extension B>)
 2965	0x24487	𤒇 (<CJK Ideograph Extension B>)
 2966	0x6A33	樳 (<CJK Ideograph>)
 2967	0x6A52	橒 (<CJK Ideograph>)
 2968	0x6AC9	櫉 (<CJK Ideograph>)
 2969	0x6B05	欅 (<CJK Ideograph>)
 2970	0x21912	𡤒 (<CJK Ideograph Extension B>)
 2971	0x6511	攑 (<CJK Ideograph>)
 2972	0x6898	梘 (<CJK Ideograph>)
 2973	0x6A4C	橌 (<CJK Ideograph>)
 2974	0x3BD7	㯗 (<CJK Ideograph Extension A>)
 2975	0x6A7A	橺 (<CJK Ideograph>)
 2976	0x6B57	歗 (<CJK Ideograph>)
 2977	0x23FC0	𣿀 (<CJK Ideograph Extension B>)
 2978	0x23C9A	𣲚 (<CJK Ideograph Extension B>)
 2979	0x93A0	鎠 (<CJK Ideograph>)
 2980	0x92F2	鋲 (<CJK Ideograph>)
 2981	0x28BEA	𨯪 (<CJK Ideograph Extension B>)
 2982	0x28ACB	𨫋 (<CJK Ideograph Extension B>)
"#

/-- encoding_tables/whatwg/index-big5.txt:1893-2049 -/
noncomputable def index19 : List Text := lines! r#" 2983	0x9289	銉 (<CJK Ideograph>)
 2984	0x2801E	𨀞 (<CJK Ideograph Extension B>)
 2985	0x289DC	𨧜 (<CJK Ideograph Extension B>)
 2986	0x9467	鑧 (<CJK Ideograph>)
 2987	0x6DA5	涥 (<CJK Ideograph>)
 2988	0x6F0B	漋 (<CJK Ideograph>)
 2989	0x249EC	𤧬 (<CJK Ideograph Extension B>)
 2990	0x6D67	浧 (<CJK Ideograph>)
 2991	0x23F7F	𣽿 (<CJK Ideograph Extension B>)
 2992	0x3D8F	㶏 (<CJK Ideograph Extension A>)
 2993	0x6E04	渄 (<CJK Ideograph>)
 2994	0x2403C	𤀼 (<CJK Ideograph Extension B>)
 2995	0x5A3D	娽 (<CJK Ideograph>)
 2996	0x6E0A	渊 (<CJK Ideograph>)
 2997	0x5847	塇 (<CJK Ideograph>)
 2998	0x6D24	洤 (<CJK Ideograph>)
 2999	0x7842	硂 (<CJK Ideograph>)
 3000	0x713B	焻 (<CJK Ideograph>)
 3001	0x2431A	𤌚 (<CJK Ideograph Extension B>)
 3002	0x24276	𤉶 (<CJK Ideograph Extension B>)
 3003	0x70F1	烱 (<CJK Ideograph>)
 3004	0x7250	牐 (<CJK Ideograph>)
 3005	0x7287	犇 (<CJK Ideograph>)
 3006	0x7294	犔 (<CJK Ideograph>)
 3007	0x2478F	𤞏 (<CJK Ideograph Extension B>)
 3008	0x24725	𤜥 (<CJK Ideograph Extension B>)
 3009	0x5179	兹 (<CJK Ideograph>)
 3010	0x24AA4	𤪤 (<CJK Ideograph Extension B>)
 3011	0x205EB	𠗫 (<CJK Ideograph Extension B>)
 3012	0x747A	瑺 (<CJK Ideograph>)
 3013	0x23EF8	𣻸 (<CJK Ideograph Extension B>)
 3014	0x2365F	𣙟 (<CJK Ideograph Extension B>)
 3015	0x24A4A	𤩊 (<CJK Ideograph Extension B>)
 3016	0x24917	𤤗 (<CJK Ideograph Extension B>)
 3017	0x25FE1	𥿡 (<CJK Ideograph Extension B>)
 3018	0x3F06	㼆 (<CJK Ideograph Extension A>)
 3019	0x3EB1	㺱 (<CJK Ideograph Extension A>)
 3020	0x24ADF	𤫟 (<CJK Ideograph Extension B>)
 3021	0x28C23	𨰣 (<CJK Ideograph Extension B>)
 3022	0x23F35	𣼵 (<CJK Ideograph Extension B>)
 3023	0x60A7	悧 (<CJK Ideograph>)
 3024	0x3EF3	㻳 (<CJK Ideograph Extension A>)
 3025	0x74CC	瓌 (<CJK Ideograph>)
 3026	0x743C	琼 (<CJK Ideograph>)
 3027	0x9387	鎇 (<CJK Ideograph>)
 3028	0x7437	琷 (<CJK Ideograph>)
 3029	0x449F	䒟 (<CJK Ideograph Extension A>)
 3030	0x26DEA	𦷪 (<CJK Ideograph Extension B>)
 3031	0x4551	䕑 (<CJK Ideograph Extension A>)
 3032	0x7583	疃 (<CJK Ideograph>)
 3033	0x3F63	㽣 (<CJK Ideograph Extension A>)
 3034	0x24CD9	𤳙 (<CJK Ideograph Extension B>)
 3035	0x24D06	𤴆 (<CJK Ideograph Extension B>)
 3036	0x3F58	㽘 (<CJK Ideograph Extension A>)
 3037	0x7555	畕 (<CJK Ideograph>)
 3038	0x7673	癳 (<CJK Ideograph>)
 3039	0x2A5C6	𪗆 (<CJK Ideograph Extension B>)
 3040	0x3B19	㬙 (<CJK Ideograph Extension A>)
 3041	0x7468	瑨 (<CJK Ideograph>)
 3042	0x28ACC	𨫌 (<CJK Ideograph Extension B>)
 3043	0x249AB	𤦫 (<CJK Ideograph Extension B>)
 3044	0x2498E	𤦎 (<CJK Ideograph Extension B>)
 3045	0x3AFB	㫻 (<CJK Ideograph Extension A>)
 3046	0x3DCD	㷍 (<CJK Ideograph Extension A>)
 3047	0x24A4E	𤩎 (<CJK Ideograph Extension B>)
 3048	0x3EFF	㻿 (<CJK Ideograph Extension A>)
 3049	0x249C5	𤧅 (<CJK Ideograph Extension B>)
 3050	0x248F3	𤣳 (<CJK Ideograph Extension B>)
 3051	0x91FA	釺 (<CJK Ideograph>)
 3052	0x5732	圲 (<CJK Ideograph>)
 3053	0x9342	鍂 (<CJK Ideograph>)
 3054	0x28AE3	𨫣 (<CJK Ideograph Extension B>)
 3055	0x21864	𡡤 (<CJK Ideograph Extension B>)
 3056	0x50DF	僟 (<CJK Ideograph>)
 3057	0x25221	𥈡 (<CJK Ideograph Extension B>)
 3058	0x251E7	𥇧 (<CJK Ideograph Extension B>)
 3059	0x7778	睸 (<CJK Ideograph>)
 3060	0x23232	𣈲 (<CJK Ideograph Extension B>)
 3061	0x770E	眎 (<CJK Ideograph>)
 3062	0x770F	眏 (<CJK Ideograph>)
 3063	0x777B	睻 (<CJK Ideograph>)
 3064	0x24697	𤚗 (<CJK Ideograph Extension B>)
 3065	0x23781	𣞁 (<CJK Ideograph Extension B>)
 3066	0x3A5E	㩞 (<CJK Ideograph Extension A>)
 3067	0x248F0	𤣰 (<CJK Ideograph Extension B>)
 3068	0x7438	琸 (<CJK Ideograph>)
 3069	0x749B	璛 (<CJK Ideograph>)
 3070	0x3EBF	㺿 (<CJK Ideograph Extension A>)
 3071	0x24ABA	𤪺 (<CJK Ideograph Extension B>)
 3072	0x24AC7	𤫇 (<CJK Ideograph Extension B>)
 3073	0x40C8	䃈 (<CJK Ideograph Extension A>)
 3074	0x24A96	𤪖 (<CJK Ideograph Extension B>)
 3075	0x261AE	𦆮 (<CJK Ideograph Extension B>)
 3076	0x9307	錇 (<CJK Ideograph>)
 3077	0x25581	𥖁 (<CJK Ideograph Extension B>)
 3078	0x781E	砞 (<CJK Ideograph>)
 3079	0x788D	碍 (<CJK Ideograph>)
 3080	0x7888	碈 (<CJK Ideograph>)
 3081	0x78D2	磒 (<CJK Ideograph>)
 3082	0x73D0	珐 (<CJK Ideograph>)
 3083	0x7959	祙 (<CJK Ideograph>)
 3084	0x27741	𧝁 (<CJK Ideograph Extension B>)
 3085	0x256E3	𥛣 (<CJK Ideograph Extension B>)
 3086	0x410E	䄎 (<CJK Ideograph Extension A>)
 3087	0x799B	禛 (<CJK Ideograph>)
 3088	0x8496	蒖 (<CJK Ideograph>)
 3089	0x79A5	禥 (<CJK Ideograph>)
 3090	0x6A2D	樭 (<CJK Ideograph>)
 3091	0x23EFA	𣻺 (<CJK Ideograph Extension B>)
 3092	0x7A3A	稺 (<CJK Ideograph>)
 3093	0x79F4	秴 (<CJK Ideograph>)
 3094	0x416E	䅮 (<CJK Ideograph Extension A>)
 3095	0x216E6	𡛦 (<CJK Ideograph Extension B>)
 3096	0x4132	䄲 (<CJK Ideograph Extension A>)
 3097	0x9235	鈵 (<CJK Ideograph>)
 3098	0x79F1	秱 (<CJK Ideograph>)
 3099	0x20D4C	𠵌 (<CJK Ideograph Extension B>)
 3100	0x2498C	𤦌 (<CJK Ideograph Extension B>)
 3101	0x20299	𠊙 (<CJK Ideograph Extension B>)
 3102	0x23DBA	𣶺 (<CJK Ideograph Extension B>)
 3103	0x2176E	𡝮 (<CJK Ideograph Extension B>)
 3104	0x3597	㖗 (<CJK Ideograph Extension A>)
 3105	0x556B	啫 (<CJK Ideograph>)
 3106	0x3570	㕰 (<CJK Ideograph Extension A>)
 3107	0x36AA	㚪 (<CJK Ideograph Extension A>)
 3108	0x201D4	𠇔 (<CJK Ideograph Extension B>)
 3109	0x20C0D	𠰍 (<CJK Ideograph Extension B>)
 3110	0x7AE2	竢 (<CJK Ideograph>)
 3111	0x5A59	婙 (<CJK Ideograph>)
 3112	0x226F5	𢛵 (<CJK Ideograph Extension B>)
 3113	0x25AAF	𥪯 (<CJK Ideograph Extension B>)
 3114	0x25A9C	𥪜 (<CJK Ideograph Extension B>)
 3115	0x5A0D	娍 (<CJK Ideograph>)
 3116	0x2025B	𠉛 (<CJK Ideograph Extension B>)
 3117	0x78F0	磰 (<CJK Ideograph>)
 3118	0x5A2A	娪 (<CJK Ideograph>)
 3119	0x25BC6	𥯆 (<CJK Ideograph Extension B>)
 3120	0x7AFE	竾 (<CJK Ideograph>)
 3121	0x41F9	䇹 (<CJK Ideograph Extension A>)
 3122	0x7C5D	籝 (<CJK Ideograph>)
 3123	0x7C6D	籭 (<CJK Ideograph>)
 3124	0x4211	䈑 (<CJK Ideograph Extension A>)
 3125	0x25BB3	𥮳 (<CJK Ideograph Extension B>)
 3126	0x25EBC	𥺼 (<CJK Ideograph Extension B>)
 3127	0x25EA6	𥺦 (<CJK Ideograph Extension B>)
 3128	0x7CCD	糍 (<CJK Ideograph>)
 3129	0x249F9	𤧹 (<CJK Ideograph Extension B>)
 3130	0x217B0	𡞰 (<CJK Ideograph Extension B>)
 3131	0x7C8E	粎 (<CJK Ideograph>)
 3132	0x7C7C	籼 (<CJK Ideograph>)
 3133	0x7CAE	粮 (<CJK Ideograph>)
 3134	0x6AB2	檲 (<CJK Ideograph>)
 3135	0x7DDC	緜 (<CJK Ideograph>)
 3136	0x7E07	縇 (<CJK Ideograph>)
 3137	0x7DD3	緓 (<CJK Ideograph>)
 3138	0x7F4E	罎 (<CJK Ideograph>)
 3139	0x26261	𦉡 (<CJK Ideograph Extension B>)
"#

/-- encoding_tables/whatwg/index-big5.txt:2050-2206 -/
noncomputable def index20 : List Text := lines! r#" 3140	0x2615C	𦅜 (<CJK Ideograph Extension B>)
 3141	0x27B48	𧭈 (<CJK Ideograph Extension B>)
 3142	0x7D97	綗 (<CJK Ideograph>)
 3143	0x25E82	𥺂 (<CJK Ideograph Extension B>)
 3144	0x426A	䉪 (<CJK Ideograph Extension A>)
 3145	0x26B75	𦭵 (<CJK Ideograph Extension B>)
 3146	0x20916	𠤖 (<CJK Ideograph Extension B>)
 3147	0x67D6	柖 (<CJK Ideograph>)
 3148	0x2004E	𠁎 (<CJK Ideograph Extension B>)
 3149	0x235CF	𣗏 (<CJK Ideograph Extension B>)
 3150	0x57C4	埄 (<CJK Ideograph>)
 3151	0x26412	𦐒 (<CJK Ideograph Extension B>)
 3152	0x263F8	𦏸 (<CJK Ideograph Extension B>)
 3153	0x24962	𤥢 (<CJK Ideograph Extension B>)
 3154	0x7FDD	翝 (<CJK Ideograph>)
 3155	0x7B27	笧 (<CJK Ideograph>)
 3156	0x2082C	𠠬 (<CJK Ideograph Extension B>)
 3157	0x25AE9	𥫩 (<CJK Ideograph Extension B>)
 3158	0x25D43	𥵃 (<CJK Ideograph Extension B>)
 3159	0x7B0C	笌 (<CJK Ideograph>)
 3160	0x25E0E	𥸎 (<CJK Ideograph Extension B>)
 3161	0x99E6	駦 (<CJK Ideograph>)
 3162	0x8645	虅 (<CJK Ideograph>)
 3163	0x9A63	驣 (<CJK Ideograph>)
 3164	0x6A1C	樜 (<CJK Ideograph>)
 3165	0x2343F	𣐿 (<CJK Ideograph Extension B>)
 3166	0x39E2	㧢 (<CJK Ideograph Extension A>)
 3167	0x249F7	𤧷 (<CJK Ideograph Extension B>)
 3168	0x265AD	𦖭 (<CJK Ideograph Extension B>)
 3169	0x9A1F	騟 (<CJK Ideograph>)
 3170	0x265A0	𦖠 (<CJK Ideograph Extension B>)
 3171	0x8480	蒀 (<CJK Ideograph>)
 3172	0x27127	𧄧 (<CJK Ideograph Extension B>)
 3173	0x26CD1	𦳑 (<CJK Ideograph Extension B>)
 3174	0x44EA	䓪 (<CJK Ideograph Extension A>)
 3175	0x8137	脷 (<CJK Ideograph>)
 3176	0x4402	䐂 (<CJK Ideograph Extension A>)
 3177	0x80C6	胆 (<CJK Ideograph>)
 3178	0x8109	脉 (<CJK Ideograph>)
 3179	0x8142	腂 (<CJK Ideograph>)
 3180	0x267B4	𦞴 (<CJK Ideograph Extension B>)
 3181	0x98C3	飃 (<CJK Ideograph>)
 3182	0x26A42	𦩂 (<CJK Ideograph Extension B>)
 3183	0x8262	艢 (<CJK Ideograph>)
 3184	0x8265	艥 (<CJK Ideograph>)
 3185	0x26A51	𦩑 (<CJK Ideograph Extension B>)
 3186	0x8453	葓 (<CJK Ideograph>)
 3187	0x26DA7	𦶧 (<CJK Ideograph Extension B>)
 3188	0x8610	蘐 (<CJK Ideograph>)
 3189	0x2721B	𧈛 (<CJK Ideograph Extension B>)
 3190	0x5A86	媆 (<CJK Ideograph>)
 3191	0x417F	䅿 (<CJK Ideograph Extension A>)
 3192	0x21840	𡡀 (<CJK Ideograph Extension B>)
 3193	0x5B2B	嬫 (<CJK Ideograph>)
 3194	0x218A1	𡢡 (<CJK Ideograph Extension B>)
 3195	0x5AE4	嫤 (<CJK Ideograph>)
 3196	0x218D8	𡣘 (<CJK Ideograph Extension B>)
 3197	0x86A0	蚠 (<CJK Ideograph>)
 3198	0x2F9BC	蜨 (CJK COMPATIBILITY IDEOGRAPH-2F9BC)
 3199	0x23D8F	𣶏 (<CJK Ideograph Extension B>)
 3200	0x882D	蠭 (<CJK Ideograph>)
 3201	0x27422	𧐢 (<CJK Ideograph Extension B>)
 3202	0x5A02	娂 (<CJK Ideograph>)
 3203	0x886E	衮 (<CJK Ideograph>)
 3204	0x4F45	佅 (<CJK Ideograph>)
 3205	0x8887	袇 (<CJK Ideograph>)
 3206	0x88BF	袿 (<CJK Ideograph>)
 3207	0x88E6	裦 (<CJK Ideograph>)
 3208	0x8965	襥 (<CJK Ideograph>)
 3209	0x894D	襍 (<CJK Ideograph>)
 3210	0x25683	𥚃 (<CJK Ideograph Extension B>)
 3211	0x8954	襔 (<CJK Ideograph>)
 3212	0x27785	𧞅 (<CJK Ideograph Extension B>)
 3213	0x27784	𧞄 (<CJK Ideograph Extension B>)
 3214	0x28BF5	𨯵 (<CJK Ideograph Extension B>)
 3215	0x28BD9	𨯙 (<CJK Ideograph Extension B>)
 3216	0x28B9C	𨮜 (<CJK Ideograph Extension B>)
 3217	0x289F9	𨧹 (<CJK Ideograph Extension B>)
 3218	0x3EAD	㺭 (<CJK Ideograph Extension A>)
 3219	0x84A3	蒣 (<CJK Ideograph>)
 3220	0x46F5	䛵 (<CJK Ideograph Extension A>)
 3221	0x46CF	䛏 (<CJK Ideograph Extension A>)
 3222	0x37F2	㟲 (<CJK Ideograph Extension A>)
 3223	0x8A3D	訽 (<CJK Ideograph>)
 3224	0x8A1C	訜 (<CJK Ideograph>)
 3225	0x29448	𩑈 (<CJK Ideograph Extension B>)
 3226	0x5F4D	彍 (<CJK Ideograph>)
 3227	0x922B	鈫 (<CJK Ideograph>)
 3228	0x24284	𤊄 (<CJK Ideograph Extension B>)
 3229	0x65D4	旔 (<CJK Ideograph>)
 3230	0x7129	焩 (<CJK Ideograph>)
 3231	0x70C4	烄 (<CJK Ideograph>)
 3232	0x21845	𡡅 (<CJK Ideograph Extension B>)
 3233	0x9D6D	鵭 (<CJK Ideograph>)
 3234	0x8C9F	貟 (<CJK Ideograph>)
 3235	0x8CE9	賩 (<CJK Ideograph>)
 3236	0x27DDC	𧷜 (<CJK Ideograph Extension B>)
 3237	0x599A	妚 (<CJK Ideograph>)
 3238	0x77C3	矃 (<CJK Ideograph>)
 3239	0x59F0	姰 (<CJK Ideograph>)
 3240	0x436E	䍮 (<CJK Ideograph Extension A>)
 3241	0x36D4	㛔 (<CJK Ideograph Extension A>)
 3242	0x8E2A	踪 (<CJK Ideograph>)
 3243	0x8EA7	躧 (<CJK Ideograph>)
 3244	0x24C09	𤰉 (<CJK Ideograph Extension B>)
 3245	0x8F30	輰 (<CJK Ideograph>)
 3246	0x8F4A	轊 (<CJK Ideograph>)
 3247	0x42F4	䋴 (<CJK Ideograph Extension A>)
 3248	0x6C58	汘 (<CJK Ideograph>)
 3249	0x6FBB	澻 (<CJK Ideograph>)
 3250	0x22321	𢌡 (<CJK Ideograph Extension B>)
 3251	0x489B	䢛 (<CJK Ideograph Extension A>)
 3252	0x6F79	潹 (<CJK Ideograph>)
 3253	0x6E8B	溋 (<CJK Ideograph>)
 3254	0x217DA	𡟚 (<CJK Ideograph Extension B>)
 3255	0x9BE9	鯩 (<CJK Ideograph>)
 3256	0x36B5	㚵 (<CJK Ideograph Extension A>)
 3257	0x2492F	𤤯 (<CJK Ideograph Extension B>)
 3258	0x90BB	邻 (<CJK Ideograph>)
 3259	0x9097	邗 (<CJK Ideograph>)
 3260	0x5571	啱 (<CJK Ideograph>)
 3261	0x4906	䤆 (<CJK Ideograph Extension A>)
 3262	0x91BB	醻 (<CJK Ideograph>)
 3263	0x9404	鐄 (<CJK Ideograph>)
 3264	0x28A4B	𨩋 (<CJK Ideograph Extension B>)
 3265	0x4062	䁢 (<CJK Ideograph Extension A>)
 3266	0x28AFC	𨫼 (<CJK Ideograph Extension B>)
 3267	0x9427	鐧 (<CJK Ideograph>)
 3268	0x28C1D	𨰝 (<CJK Ideograph Extension B>)
 3269	0x28C3B	𨰻 (<CJK Ideograph Extension B>)
 3270	0x84E5	蓥 (<CJK Ideograph>)
 3271	0x8A2B	訫 (<CJK Ideograph>)
 3272	0x9599	閙 (<CJK Ideograph>)
 3273	0x95A7	閧 (<CJK Ideograph>)
 3274	0x9597	閗 (<CJK Ideograph>)
 3275	0x9596	閖 (<CJK Ideograph>)
 3276	0x28D34	𨴴 (<CJK Ideograph Extension B>)
 3277	0x7445	瑅 (<CJK Ideograph>)
 3278	0x3EC2	㻂 (<CJK Ideograph Extension A>)
 3279	0x248FF	𤣿 (<CJK Ideograph Extension B>)
 3280	0x24A42	𤩂 (<CJK Ideograph Extension B>)
 3281	0x243EA	𤏪 (<CJK Ideograph Extension B>)
 3282	0x3EE7	㻧 (<CJK Ideograph Extension A>)
 3283	0x23225	𣈥 (<CJK Ideograph Extension B>)
 3284	0x968F	随 (<CJK Ideograph>)
 3285	0x28EE7	𨻧 (<CJK Ideograph Extension B>)
 3286	0x28E66	𨹦 (<CJK Ideograph Extension B>)
 3287	0x28E65	𨹥 (<CJK Ideograph Extension B>)
 3288	0x3ECC	㻌 (<CJK Ideograph Extension A>)
 3289	0x249ED	𤧭 (<CJK Ideograph Extension B>)
 3290	0x24A78	𤩸 (<CJK Ideograph Extension B>)
 3291	0x23FEE	𣿮 (<CJK Ideograph Extension B>)
 3292	0x7412	琒 (<CJK Ideograph>)
 3293	0x746B	瑫 (<CJK Ideograph>)
 3294	0x3EFC	㻼 (<CJK Ideograph Extension A>)
 3295	0x9741	靁 (<CJK Ideograph>)
 3296	0x290B0	𩂰 (<CJK Ideograph Extension B>)
"#

/-- encoding_tables/whatwg/index-big5.txt:2207-2363 -/
noncomputable def index21 : List Text := lines! r#" 3297	0x6847	桇 (<CJK Ideograph>)
 3298	0x4A1D	䨝 (<CJK Ideograph Extension A>)
 3299	0x29093	𩂓 (<CJK Ideograph Extension B>)
 3300	0x257DF	𥟟 (<CJK Ideograph Extension B>)
 3301	0x975D	靝 (<CJK Ideograph>)
 3302	0x9368	鍨 (<CJK Ideograph>)
 3303	0x28989	𨦉 (<CJK Ideograph Extension B>)
 3304	0x28C26	𨰦 (<CJK Ideograph Extension B>)
 3305	0x28B2F	𨬯 (<CJK Ideograph Extension B>)
 3306	0x263BE	𦎾 (<CJK Ideograph Extension B>)
 3307	0x92BA	銺 (<CJK Ideograph>)
 3308	0x5B11	嬑 (<CJK Ideograph>)
 3309	0x8B69	譩 (<CJK Ideograph>)
 3310	0x493C	䤼 (<CJK Ideograph Extension A>)
 3311	0x73F9	珹 (<CJK Ideograph>)
 3312	0x2421B	𤈛 (<CJK Ideograph Extension B>)
 3313	0x979B	鞛 (<CJK Ideograph>)
 3314	0x9771	靱 (<CJK Ideograph>)
 3315	0x9938	餸 (<CJK Ideograph>)
 3316	0x20F26	𠼦 (<CJK Ideograph Extension B>)
 3317	0x5DC1	巁 (<CJK Ideograph>)
 3318	0x28BC5	𨯅 (<CJK Ideograph Extension B>)
 3319	0x24AB2	𤪲 (<CJK Ideograph Extension B>)
 3320	0x981F	頟 (<CJK Ideograph>)
 3321	0x294DA	𩓚 (<CJK Ideograph Extension B>)
 3322	0x92F6	鋶 (<CJK Ideograph>)
 3323	0x295D7	𩗗 (<CJK Ideograph Extension B>)
 3324	0x91E5	釥 (<CJK Ideograph>)
 3325	0x44C0	䓀 (<CJK Ideograph Extension A>)
 3326	0x28B50	𨭐 (<CJK Ideograph Extension B>)
 3327	0x24A67	𤩧 (<CJK Ideograph Extension B>)
 3328	0x28B64	𨭤 (<CJK Ideograph Extension B>)
 3329	0x98DC	飜 (<CJK Ideograph>)
 3330	0x28A45	𨩅 (<CJK Ideograph Extension B>)
 3331	0x3F00	㼀 (<CJK Ideograph Extension A>)
 3332	0x922A	鈪 (<CJK Ideograph>)
 3333	0x4925	䤥 (<CJK Ideograph Extension A>)
 3334	0x8414	萔 (<CJK Ideograph>)
 3335	0x993B	餻 (<CJK Ideograph>)
 3336	0x994D	饍 (<CJK Ideograph>)
 3337	0x27B06	𧬆 (<CJK Ideograph Extension B>)
 3338	0x3DFD	㷽 (<CJK Ideograph Extension A>)
 3339	0x999B	馛 (<CJK Ideograph>)
 3340	0x4B6F	䭯 (<CJK Ideograph Extension A>)
 3341	0x99AA	馪 (<CJK Ideograph>)
 3342	0x9A5C	驜 (<CJK Ideograph>)
 3343	0x28B65	𨭥 (<CJK Ideograph Extension B>)
 3344	0x258C8	𥣈 (<CJK Ideograph Extension B>)
 3345	0x6A8F	檏 (<CJK Ideograph>)
 3346	0x9A21	騡 (<CJK Ideograph>)
 3347	0x5AFE	嫾 (<CJK Ideograph>)
 3348	0x9A2F	騯 (<CJK Ideograph>)
 3349	0x298F1	𩣱 (<CJK Ideograph Extension B>)
 3350	0x4B90	䮐 (<CJK Ideograph Extension A>)
 3351	0x29948	𩥈 (<CJK Ideograph Extension B>)
 3352	0x99BC	馼 (<CJK Ideograph>)
 3353	0x4BBD	䮽 (<CJK Ideograph Extension A>)
 3354	0x4B97	䮗 (<CJK Ideograph Extension A>)
 3355	0x937D	鍽 (<CJK Ideograph>)
 3356	0x5872	塲 (<CJK Ideograph>)
 3357	0x21302	𡌂 (<CJK Ideograph Extension B>)
 3358	0x5822	堢 (<CJK Ideograph>)
 3359	0x249B8	𤦸 (<CJK Ideograph Extension B>)
 3360	0x214E8	𡓨 (<CJK Ideograph Extension B>)
 3361	0x7844	硄 (<CJK Ideograph>)
 3362	0x2271F	𢜟 (<CJK Ideograph Extension B>)
 3363	0x23DB8	𣶸 (<CJK Ideograph Extension B>)
 3364	0x68C5	棅 (<CJK Ideograph>)
 3365	0x3D7D	㵽 (<CJK Ideograph Extension A>)
 3366	0x9458	鑘 (<CJK Ideograph>)
 3367	0x3927	㤧 (<CJK Ideograph Extension A>)
 3368	0x6150	慐 (<CJK Ideograph>)
 3369	0x22781	𢞁 (<CJK Ideograph Extension B>)
 3370	0x2296B	𢥫 (<CJK Ideograph Extension B>)
 3371	0x6107	愇 (<CJK Ideograph>)
 3372	0x9C4F	鱏 (<CJK Ideograph>)
 3373	0x9C53	鱓 (<CJK Ideograph>)
 3374	0x9C7B	鱻 (<CJK Ideograph>)
 3375	0x9C35	鰵 (<CJK Ideograph>)
 3376	0x9C10	鰐 (<CJK Ideograph>)
 3377	0x9B7F	魿 (<CJK Ideograph>)
 3378	0x9BCF	鯏 (<CJK Ideograph>)
 3379	0x29E2D	𩸭 (<CJK Ideograph Extension B>)
 3380	0x9B9F	鮟 (<CJK Ideograph>)
 3381	0x2A1F5	𪇵 (<CJK Ideograph Extension B>)
 3382	0x2A0FE	𪃾 (<CJK Ideograph Extension B>)
 3383	0x9D21	鴡 (<CJK Ideograph>)
 3384	0x4CAE	䲮 (<CJK Ideograph Extension A>)
 3385	0x24104	𤄄 (<CJK Ideograph Extension B>)
 3386	0x9E18	鸘 (<CJK Ideograph>)
 3387	0x4CB0	䲰 (<CJK Ideograph Extension A>)
 3388	0x9D0C	鴌 (<CJK Ideograph>)
 3389	0x2A1B4	𪆴 (<CJK Ideograph Extension B>)
 3390	0x2A0ED	𪃭 (<CJK Ideograph Extension B>)
 3391	0x2A0F3	𪃳 (<CJK Ideograph Extension B>)
 3392	0x2992F	𩤯 (<CJK Ideograph Extension B>)
 3393	0x9DA5	鶥 (<CJK Ideograph>)
 3394	0x84BD	蒽 (<CJK Ideograph>)
 3395	0x26E12	𦸒 (<CJK Ideograph Extension B>)
 3396	0x26FDF	𦿟 (<CJK Ideograph Extension B>)
 3397	0x26B82	𦮂 (<CJK Ideograph Extension B>)
 3398	0x85FC	藼 (<CJK Ideograph>)
 3399	0x4533	䔳 (<CJK Ideograph Extension A>)
 3400	0x26DA4	𦶤 (<CJK Ideograph Extension B>)
 3401	0x26E84	𦺄 (<CJK Ideograph Extension B>)
 3402	0x26DF0	𦷰 (<CJK Ideograph Extension B>)
 3403	0x8420	萠 (<CJK Ideograph>)
 3404	0x85EE	藮 (<CJK Ideograph>)
 3405	0x26E00	𦸀 (<CJK Ideograph Extension B>)
 3406	0x237D7	𣟗 (<CJK Ideograph Extension B>)
 3407	0x26064	𦁤 (<CJK Ideograph Extension B>)
 3408	0x79E2	秢 (<CJK Ideograph>)
 3409	0x2359C	𣖜 (<CJK Ideograph Extension B>)
 3410	0x23640	𣙀 (<CJK Ideograph Extension B>)
 3411	0x492D	䤭 (<CJK Ideograph Extension A>)
 3412	0x249DE	𤧞 (<CJK Ideograph Extension B>)
 3413	0x3D62	㵢 (<CJK Ideograph Extension A>)
 3414	0x93DB	鏛 (<CJK Ideograph>)
 3415	0x92BE	銾 (<CJK Ideograph>)
 3416	0x9348	鍈 (<CJK Ideograph>)
 3417	0x202BF	𠊿 (<CJK Ideograph Extension B>)
 3418	0x78B9	碹 (<CJK Ideograph>)
 3419	0x9277	鉷 (<CJK Ideograph>)
 3420	0x944D	鑍 (<CJK Ideograph>)
 3421	0x4FE4	俤 (<CJK Ideograph>)
 3422	0x3440	㑀 (<CJK Ideograph Extension A>)
 3423	0x9064	遤 (<CJK Ideograph>)
 3424	0x2555D	𥕝 (<CJK Ideograph Extension B>)
 3425	0x783D	砽 (<CJK Ideograph>)
 3426	0x7854	硔 (<CJK Ideograph>)
 3427	0x78B6	碶 (<CJK Ideograph>)
 3428	0x784B	硋 (<CJK Ideograph>)
 3429	0x21757	𡝗 (<CJK Ideograph Extension B>)
 3430	0x231C9	𣇉 (<CJK Ideograph Extension B>)
 3431	0x24941	𤥁 (<CJK Ideograph Extension B>)
 3432	0x369A	㚚 (<CJK Ideograph Extension A>)
 3433	0x4F72	佲 (<CJK Ideograph>)
 3434	0x6FDA	濚 (<CJK Ideograph>)
 3435	0x6FD9	濙 (<CJK Ideograph>)
 3436	0x701E	瀞 (<CJK Ideograph>)
 3437	0x701E	瀞 (<CJK Ideograph>)
 3438	0x5414	吔 (<CJK Ideograph>)
 3439	0x241B5	𤆵 (<CJK Ideograph Extension B>)
 3440	0x57BB	垻 (<CJK Ideograph>)
 3441	0x58F3	壳 (<CJK Ideograph>)
 3442	0x578A	垊 (<CJK Ideograph>)
 3443	0x9D16	鴖 (<CJK Ideograph>)
 3444	0x57D7	埗 (<CJK Ideograph>)
 3445	0x7134	焴 (<CJK Ideograph>)
 3446	0x34AF	㒯 (<CJK Ideograph Extension A>)
 3447	0x241AC	𤆬 (<CJK Ideograph Extension B>)
 3448	0x71EB	燫 (<CJK Ideograph>)
 3449	0x26C40	𦱀 (<CJK Ideograph Extension B>)
 3450	0x24F97	𤾗 (<CJK Ideograph Extension B>)
 3451	0x5B28	嬨 (<CJK Ideograph>)
 3452	0x217B5	𡞵 (<CJK Ideograph Extension B>)
 3453	0x28A49	𨩉 (<CJK Ideograph Extension B>)
"#

/-- encoding_tables/whatwg/index-big5.txt:2364-2520 -/
noncomputable def index22 : List Text := lines! r#" 3454	0x610C	愌 (<CJK Ideograph>)
 3455	0x5ACE	嫎 (<CJK Ideograph>)
 3456	0x5A0B	娋 (<CJK Ideograph>)
 3457	0x42BC	䊼 (<CJK Ideograph Extension A>)
 3458	0x24488	𤒈 (<CJK Ideograph Extension B>)
 3459	0x372C	㜬 (<CJK Ideograph Extension A>)
 3460	0x4B7B	䭻 (<CJK Ideograph Extension A>)
 3461	0x289FC	𨧼 (<CJK Ideograph Extension B>)
 3462	0x93BB	鎻 (<CJK Ideograph>)
 3463	0x93B8	鎸 (<CJK Ideograph>)
 3464	0x218D6	𡣖 (<CJK Ideograph Extension B>)
 3465	0x20F1D	𠼝 (<CJK Ideograph Extension B>)
 3466	0x8472	葲 (<CJK Ideograph>)
 3467	0x26CC0	𦳀 (<CJK Ideograph Extension B>)
 3468	0x21413	𡐓 (<CJK Ideograph Extension B>)
 3469	0x242FA	𤋺 (<CJK Ideograph Extension B>)
 3470	0x22C26	𢰦 (<CJK Ideograph Extension B>)
 3471	0x243C1	𤏁 (<CJK Ideograph Extension B>)
 3472	0x5994	妔 (<CJK Ideograph>)
 3473	0x23DB7	𣶷 (<CJK Ideograph Extension B>)
 3474	0x26741	𦝁 (<CJK Ideograph Extension B>)
 3475	0x7DA8	綨 (<CJK Ideograph>)
 3476	0x2615B	𦅛 (<CJK Ideograph Extension B>)
 3477	0x260A4	𦂤 (<CJK Ideograph Extension B>)
 3478	0x249B9	𤦹 (<CJK Ideograph Extension B>)
 3479	0x2498B	𤦋 (<CJK Ideograph Extension B>)
 3480	0x289FA	𨧺 (<CJK Ideograph Extension B>)
 3481	0x92E5	鋥 (<CJK Ideograph>)
 3482	0x73E2	珢 (<CJK Ideograph>)
 3483	0x3EE9	㻩 (<CJK Ideograph Extension A>)
 3484	0x74B4	璴 (<CJK Ideograph>)
 3485	0x28B63	𨭣 (<CJK Ideograph Extension B>)
 3486	0x2189F	𡢟 (<CJK Ideograph Extension B>)
 3487	0x3EE1	㻡 (<CJK Ideograph Extension A>)
 3488	0x24AB3	𤪳 (<CJK Ideograph Extension B>)
 3489	0x6AD8	櫘 (<CJK Ideograph>)
 3490	0x73F3	珳 (<CJK Ideograph>)
 3491	0x73FB	珻 (<CJK Ideograph>)
 3492	0x3ED6	㻖 (<CJK Ideograph Extension A>)
 3493	0x24A3E	𤨾 (<CJK Ideograph Extension B>)
 3494	0x24A94	𤪔 (<CJK Ideograph Extension B>)
 3495	0x217D9	𡟙 (<CJK Ideograph Extension B>)
 3496	0x24A66	𤩦 (<CJK Ideograph Extension B>)
 3497	0x203A7	𠎧 (<CJK Ideograph Extension B>)
 3498	0x21424	𡐤 (<CJK Ideograph Extension B>)
 3499	0x249E5	𤧥 (<CJK Ideograph Extension B>)
 3500	0x7448	瑈 (<CJK Ideograph>)
 3501	0x24916	𤤖 (<CJK Ideograph Extension B>)
 3502	0x70A5	炥 (<CJK Ideograph>)
 3503	0x24976	𤥶 (<CJK Ideograph Extension B>)
 3504	0x9284	銄 (<CJK Ideograph>)
 3505	0x73E6	珦 (<CJK Ideograph>)
 3506	0x935F	鍟 (<CJK Ideograph>)
 3507	0x204FE	𠓾 (<CJK Ideograph Extension B>)
 3508	0x9331	錱 (<CJK Ideograph>)
 3509	0x28ACE	𨫎 (<CJK Ideograph Extension B>)
 3510	0x28A16	𨨖 (<CJK Ideograph Extension B>)
 3511	0x9386	鎆 (<CJK Ideograph>)
 3512	0x28BE7	𨯧 (<CJK Ideograph Extension B>)
 3513	0x255D5	𥗕 (<CJK Ideograph Extension B>)
 3514	0x4935	䤵 (<CJK Ideograph Extension A>)
 3515	0x28A82	𨪂 (<CJK Ideograph Extension B>)
 3516	0x716B	煫 (<CJK Ideograph>)
 3517	0x24943	𤥃 (<CJK Ideograph Extension B>)
 3518	0x20CFF	𠳿 (<CJK Ideograph Extension B>)
 3519	0x56A4	嚤 (<CJK Ideograph>)
 3520	0x2061A	𠘚 (<CJK Ideograph Extension B>)
 3521	0x20BEB	𠯫 (<CJK Ideograph Extension B>)
 3522	0x20CB8	𠲸 (<CJK Ideograph Extension B>)
 3523	0x5502	唂 (<CJK Ideograph>)
 3524	0x79C4	秄 (<CJK Ideograph>)
 3525	0x217FA	𡟺 (<CJK Ideograph Extension B>)
 3526	0x7DFE	緾 (<CJK Ideograph>)
 3527	0x216C2	𡛂 (<CJK Ideograph Extension B>)
 3528	0x24A50	𤩐 (<CJK Ideograph Extension B>)
 3529	0x21852	𡡒 (<CJK Ideograph Extension B>)
 3530	0x452E	䔮 (<CJK Ideograph Extension A>)
 3531	0x9401	鐁 (<CJK Ideograph>)
 3532	0x370A	㜊 (<CJK Ideograph Extension A>)
 3533	0x28AC0	𨫀 (<CJK Ideograph Extension B>)
 3534	0x249AD	𤦭 (<CJK Ideograph Extension B>)
 3535	0x59B0	妰 (<CJK Ideograph>)
 3536	0x218BF	𡢿 (<CJK Ideograph Extension B>)
 3537	0x21883	𡢃 (<CJK Ideograph Extension B>)
 3538	0x27484	𧒄 (<CJK Ideograph Extension B>)
 3539	0x5AA1	媡 (<CJK Ideograph>)
 3540	0x36E2	㛢 (<CJK Ideograph Extension A>)
 3541	0x23D5B	𣵛 (<CJK Ideograph Extension B>)
 3542	0x36B0	㚰 (<CJK Ideograph Extension A>)
 3543	0x925F	鉟 (<CJK Ideograph>)
 3544	0x5A79	婹 (<CJK Ideograph>)
 3545	0x28A81	𨪁 (<CJK Ideograph Extension B>)
 3546	0x21862	𡡢 (<CJK Ideograph Extension B>)
 3547	0x9374	鍴 (<CJK Ideograph>)
 3548	0x3CCD	㳍 (<CJK Ideograph Extension A>)
 3549	0x20AB4	𠪴 (<CJK Ideograph Extension B>)
 3550	0x4A96	䪖 (<CJK Ideograph Extension A>)
 3551	0x398A	㦊 (<CJK Ideograph Extension A>)
 3552	0x50F4	僴 (<CJK Ideograph>)
 3553	0x3D69	㵩 (<CJK Ideograph Extension A>)
 3554	0x3D4C	㵌 (<CJK Ideograph Extension A>)
 3555	0x2139C	𡎜 (<CJK Ideograph Extension B>)
 3556	0x7175	煵 (<CJK Ideograph>)
 3557	0x42FB	䋻 (<CJK Ideograph Extension A>)
 3558	0x28218	𨈘 (<CJK Ideograph Extension B>)
 3559	0x6E0F	渏 (<CJK Ideograph>)
 3560	0x290E4	𩃤 (<CJK Ideograph Extension B>)
 3561	0x44EB	䓫 (<CJK Ideograph Extension A>)
 3562	0x6D57	浗 (<CJK Ideograph>)
 3563	0x27E4F	𧹏 (<CJK Ideograph Extension B>)
 3564	0x7067	灧 (<CJK Ideograph>)
 3565	0x6CAF	沯 (<CJK Ideograph>)
 3566	0x3CD6	㳖 (<CJK Ideograph Extension A>)
 3567	0x23FED	𣿭 (<CJK Ideograph Extension B>)
 3568	0x23E2D	𣸭 (<CJK Ideograph Extension B>)
 3569	0x6E02	渂 (<CJK Ideograph>)
 3570	0x6F0C	漌 (<CJK Ideograph>)
 3571	0x3D6F	㵯 (<CJK Ideograph Extension A>)
 3572	0x203F5	𠏵 (<CJK Ideograph Extension B>)
 3573	0x7551	畑 (<CJK Ideograph>)
 3574	0x36BC	㚼 (<CJK Ideograph Extension A>)
 3575	0x34C8	㓈 (<CJK Ideograph Extension A>)
 3576	0x4680	䚀 (<CJK Ideograph Extension A>)
 3577	0x3EDA	㻚 (<CJK Ideograph Extension A>)
 3578	0x4871	䡱 (<CJK Ideograph Extension A>)
 3579	0x59C4	姄 (<CJK Ideograph>)
 3580	0x926E	鉮 (<CJK Ideograph>)
 3581	0x493E	䤾 (<CJK Ideograph Extension A>)
 3582	0x8F41	轁 (<CJK Ideograph>)
 3583	0x28C1C	𨰜 (<CJK Ideograph Extension B>)
 3584	0x26BC0	𦯀 (<CJK Ideograph Extension B>)
 3585	0x5812	堒 (<CJK Ideograph>)
 3586	0x57C8	埈 (<CJK Ideograph>)
 3587	0x36D6	㛖 (<CJK Ideograph Extension A>)
 3588	0x21452	𡑒 (<CJK Ideograph Extension B>)
 3589	0x70FE	烾 (<CJK Ideograph>)
 3590	0x24362	𤍢 (<CJK Ideograph Extension B>)
 3591	0x24A71	𤩱 (<CJK Ideograph Extension B>)
 3592	0x22FE3	𢿣 (<CJK Ideograph Extension B>)
 3593	0x212B0	𡊰 (<CJK Ideograph Extension B>)
 3594	0x223BD	𢎽 (<CJK Ideograph Extension B>)
 3595	0x68B9	梹 (<CJK Ideograph>)
 3596	0x6967	楧 (<CJK Ideograph>)
 3597	0x21398	𡎘 (<CJK Ideograph Extension B>)
 3598	0x234E5	𣓥 (<CJK Ideograph Extension B>)
 3599	0x27BF4	𧯴 (<CJK Ideograph Extension B>)
 3600	0x236DF	𣛟 (<CJK Ideograph Extension B>)
 3601	0x28A83	𨪃 (<CJK Ideograph Extension B>)
 3602	0x237D6	𣟖 (<CJK Ideograph Extension B>)
 3603	0x233FA	𣏺 (<CJK Ideograph Extension B>)
 3604	0x24C9F	𤲟 (<CJK Ideograph Extension B>)
 3605	0x6A1A	樚 (<CJK Ideograph>)
 3606	0x236AD	𣚭 (<CJK Ideograph Extension B>)
 3607	0x26CB7	𦲷 (<CJK Ideograph Extension B>)
 3608	0x843E	萾 (<CJK Ideograph>)
 3609	0x44DF	䓟 (<CJK Ideograph Extension A>)
 3610	0x44CE	䓎 (<CJK Ideograph Extension A>)
"#

/-- encoding_tables/whatwg/index-big5.txt:2521-2677 -/
noncomputable def index23 : List Text := lines! r#" 3611	0x26D26	𦴦 (<CJK Ideograph Extension B>)
 3612	0x26D51	𦵑 (<CJK Ideograph Extension B>)
 3613	0x26C82	𦲂 (<CJK Ideograph Extension B>)
 3614	0x26FDE	𦿞 (<CJK Ideograph Extension B>)
 3615	0x6F17	漗 (<CJK Ideograph>)
 3616	0x27109	𧄉 (<CJK Ideograph Extension B>)
 3617	0x833D	茽 (<CJK Ideograph>)
 3618	0x2173A	𡜺 (<CJK Ideograph Extension B>)
 3619	0x83ED	菭 (<CJK Ideograph>)
 3620	0x26C80	𦲀 (<CJK Ideograph Extension B>)
 3621	0x27053	𧁓 (<CJK Ideograph Extension B>)
 3622	0x217DB	𡟛 (<CJK Ideograph Extension B>)
 3623	0x5989	妉 (<CJK Ideograph>)
 3624	0x5A82	媂 (<CJK Ideograph>)
 3625	0x217B3	𡞳 (<CJK Ideograph Extension B>)
 3626	0x5A61	婡 (<CJK Ideograph>)
 3627	0x5A71	婱 (<CJK Ideograph>)
 3628	0x21905	𡤅 (<CJK Ideograph Extension B>)
 3629	0x241FC	𤇼 (<CJK Ideograph Extension B>)
 3630	0x372D	㜭 (<CJK Ideograph Extension A>)
 3631	0x59EF	姯 (<CJK Ideograph>)
 3632	0x2173C	𡜼 (<CJK Ideograph Extension B>)
 3633	0x36C7	㛇 (<CJK Ideograph Extension A>)
 3634	0x718E	熎 (<CJK Ideograph>)
 3635	0x9390	鎐 (<CJK Ideograph>)
 3636	0x669A	暚 (<CJK Ideograph>)
 3637	0x242A5	𤊥 (<CJK Ideograph Extension B>)
 3638	0x5A6E	婮 (<CJK Ideograph>)
 3639	0x5A2B	娫 (<CJK Ideograph>)
 3640	0x24293	𤊓 (<CJK Ideograph Extension B>)
 3641	0x6A2B	樫 (<CJK Ideograph>)
 3642	0x23EF9	𣻹 (<CJK Ideograph Extension B>)
 3643	0x27736	𧜶 (<CJK Ideograph Extension B>)
 3644	0x2445B	𤑛 (<CJK Ideograph Extension B>)
 3645	0x242CA	𤋊 (<CJK Ideograph Extension B>)
 3646	0x711D	焝 (<CJK Ideograph>)
 3647	0x24259	𤉙 (<CJK Ideograph Extension B>)
 3648	0x289E1	𨧡 (<CJK Ideograph Extension B>)
 3649	0x4FB0	侰 (<CJK Ideograph>)
 3650	0x26D28	𦴨 (<CJK Ideograph Extension B>)
 3651	0x5CC2	峂 (<CJK Ideograph>)
 3652	0x244CE	𤓎 (<CJK Ideograph Extension B>)
 3653	0x27E4D	𧹍 (<CJK Ideograph Extension B>)
 3654	0x243BD	𤎽 (<CJK Ideograph Extension B>)
 3655	0x6A0C	樌 (<CJK Ideograph>)
 3656	0x24256	𤉖 (<CJK Ideograph Extension B>)
 3657	0x21304	𡌄 (<CJK Ideograph Extension B>)
 3658	0x70A6	炦 (<CJK Ideograph>)
 3659	0x7133	焳 (<CJK Ideograph>)
 3660	0x243E9	𤏩 (<CJK Ideograph Extension B>)
 3661	0x3DA5	㶥 (<CJK Ideograph Extension A>)
 3662	0x6CDF	泟 (<CJK Ideograph>)
 3663	0x2F825	勇 (CJK COMPATIBILITY IDEOGRAPH-2F825)
 3664	0x24A4F	𤩏 (<CJK Ideograph Extension B>)
 3665	0x7E65	繥 (<CJK Ideograph>)
 3666	0x59EB	姫 (<CJK Ideograph>)
 3667	0x5D2F	崯 (<CJK Ideograph>)
 3668	0x3DF3	㷳 (<CJK Ideograph Extension A>)
 3669	0x5F5C	彜 (<CJK Ideograph>)
 3670	0x24A5D	𤩝 (<CJK Ideograph Extension B>)
 3671	0x217DF	𡟟 (<CJK Ideograph Extension B>)
 3672	0x7DA4	綤 (<CJK Ideograph>)
 3673	0x8426	萦 (<CJK Ideograph>)
 3674	0x5485	咅 (<CJK Ideograph>)
 3675	0x23AFA	𣫺 (<CJK Ideograph Extension B>)
 3676	0x23300	𣌀 (<CJK Ideograph Extension B>)
 3677	0x20214	𠈔 (<CJK Ideograph Extension B>)
 3678	0x577E	坾 (<CJK Ideograph>)
 3679	0x208D5	𠣕 (<CJK Ideograph Extension B>)
 3680	0x20619	𠘙 (<CJK Ideograph Extension B>)
 3681	0x3FE5	㿥 (<CJK Ideograph Extension A>)
 3682	0x21F9E	𡾞 (<CJK Ideograph Extension B>)
 3683	0x2A2B6	𪊶 (<CJK Ideograph Extension B>)
 3684	0x7003	瀃 (<CJK Ideograph>)
 3685	0x2915B	𩅛 (<CJK Ideograph Extension B>)
 3686	0x5D70	嵰 (<CJK Ideograph>)
 3687	0x738F	玏 (<CJK Ideograph>)
 3688	0x7CD3	糓 (<CJK Ideograph>)
 3689	0x28A59	𨩙 (<CJK Ideograph Extension B>)
 3690	0x29420	𩐠 (<CJK Ideograph Extension B>)
 3691	0x4FC8	俈 (<CJK Ideograph>)
 3692	0x7FE7	翧 (<CJK Ideograph>)
 3693	0x72CD	狍 (<CJK Ideograph>)
 3694	0x7310	猐 (<CJK Ideograph>)
 3695	0x27AF4	𧫴 (<CJK Ideograph Extension B>)
 3696	0x7338	猸 (<CJK Ideograph>)
 3697	0x7339	猹 (<CJK Ideograph>)
 3698	0x256F6	𥛶 (<CJK Ideograph Extension B>)
 3699	0x7341	獁 (<CJK Ideograph>)
 3700	0x7348	獈 (<CJK Ideograph>)
 3701	0x3EA9	㺩 (<CJK Ideograph Extension A>)
 3702	0x27B18	𧬘 (<CJK Ideograph Extension B>)
 3703	0x906C	遬 (<CJK Ideograph>)
 3704	0x71F5	燵 (<CJK Ideograph>)
 3705	0x248F2	𤣲 (<CJK Ideograph Extension B>)
 3706	0x73E1	珡 (<CJK Ideograph>)
 3707	0x81F6	臶 (<CJK Ideograph>)
 3708	0x3ECA	㻊 (<CJK Ideograph Extension A>)
 3709	0x770C	県 (<CJK Ideograph>)
 3710	0x3ED1	㻑 (<CJK Ideograph Extension A>)
 3711	0x6CA2	沢 (<CJK Ideograph>)
 3712	0x56FD	国 (<CJK Ideograph>)
 3713	0x7419	琙 (<CJK Ideograph>)
 3714	0x741E	琞 (<CJK Ideograph>)
 3715	0x741F	琟 (<CJK Ideograph>)
 3716	0x3EE2	㻢 (<CJK Ideograph Extension A>)
 3717	0x3EF0	㻰 (<CJK Ideograph Extension A>)
 3718	0x3EF4	㻴 (<CJK Ideograph Extension A>)
 3719	0x3EFA	㻺 (<CJK Ideograph Extension A>)
 3720	0x74D3	瓓 (<CJK Ideograph>)
 3721	0x3F0E	㼎 (<CJK Ideograph Extension A>)
 3722	0x3F53	㽓 (<CJK Ideograph Extension A>)
 3723	0x7542	畂 (<CJK Ideograph>)
 3724	0x756D	畭 (<CJK Ideograph>)
 3725	0x7572	畲 (<CJK Ideograph>)
 3726	0x758D	疍 (<CJK Ideograph>)
 3727	0x3F7C	㽼 (<CJK Ideograph Extension A>)
 3728	0x75C8	痈 (<CJK Ideograph>)
 3729	0x75DC	痜 (<CJK Ideograph>)
 3730	0x3FC0	㿀 (<CJK Ideograph Extension A>)
 3731	0x764D	癍 (<CJK Ideograph>)
 3732	0x3FD7	㿗 (<CJK Ideograph Extension A>)
 3733	0x7674	癴 (<CJK Ideograph>)
 3734	0x3FDC	㿜 (<CJK Ideograph Extension A>)
 3735	0x767A	発 (<CJK Ideograph>)
 3736	0x24F5C	𤽜 (<CJK Ideograph Extension B>)
 3737	0x7188	熈 (<CJK Ideograph>)
 3738	0x5623	嘣 (<CJK Ideograph>)
 3739	0x8980	覀 (<CJK Ideograph>)
 3740	0x5869	塩 (<CJK Ideograph>)
 3741	0x401D	䀝 (<CJK Ideograph Extension A>)
 3742	0x7743	睃 (<CJK Ideograph>)
 3743	0x4039	䀹 (<CJK Ideograph Extension A>)
 3744	0x6761	条 (<CJK Ideograph>)
 3745	0x4045	䁅 (<CJK Ideograph Extension A>)
 3746	0x35DB	㗛 (<CJK Ideograph Extension A>)
 3747	0x7798	瞘 (<CJK Ideograph>)
 3748	0x406A	䁪 (<CJK Ideograph Extension A>)
 3749	0x406F	䁯 (<CJK Ideograph Extension A>)
 3750	0x5C5E	属 (<CJK Ideograph>)
 3751	0x77BE	瞾 (<CJK Ideograph>)
 3752	0x77CB	矋 (<CJK Ideograph>)
 3753	0x58F2	売 (<CJK Ideograph>)
 3754	0x7818	砘 (<CJK Ideograph>)
 3755	0x70B9	点 (<CJK Ideograph>)
 3756	0x781C	砜 (<CJK Ideograph>)
 3757	0x40A8	䂨 (<CJK Ideograph Extension A>)
 3758	0x7839	砹 (<CJK Ideograph>)
 3759	0x7847	硇 (<CJK Ideograph>)
 3760	0x7851	硑 (<CJK Ideograph>)
 3761	0x7866	硦 (<CJK Ideograph>)
 3762	0x8448	葈 (<CJK Ideograph>)
 3763	0x25535	𥔵 (<CJK Ideograph Extension B>)
 3764	0x7933	礳 (<CJK Ideograph>)
 3765	0x6803	栃 (<CJK Ideograph>)
 3766	0x7932	礲 (<CJK Ideograph>)
 3767	0x4103	䄃 (<CJK Ideograph Extension A>)
"#

/-- encoding_tables/whatwg/index-big5.txt:2678-2834 -/
noncomputable def index24 : List Text := lines! r#" 3768	0x4109	䄉 (<CJK Ideograph Extension A>)
 3769	0x7991	禑 (<CJK Ideograph>)
 3770	0x7999	禙 (<CJK Ideograph>)
 3771	0x8FBB	辻 (<CJK Ideograph>)
 3772	0x7A06	稆 (<CJK Ideograph>)
 3773	0x8FBC	込 (<CJK Ideograph>)
 3774	0x4167	䅧 (<CJK Ideograph Extension A>)
 3775	0x7A91	窑 (<CJK Ideograph>)
 3776	0x41B2	䆲 (<CJK Ideograph Extension A>)
 3777	0x7ABC	窼 (<CJK Ideograph>)
 3778	0x8279	艹 (<CJK Ideograph>)
 3779	0x41C4	䇄 (<CJK Ideograph Extension A>)
 3780	0x7ACF	竏 (<CJK Ideograph>)
 3781	0x7ADB	竛 (<CJK Ideograph>)
 3782	0x41CF	䇏 (<CJK Ideograph Extension A>)
 3783	0x4E21	両 (<CJK Ideograph>)
 3784	0x7B62	筢 (<CJK Ideograph>)
 3785	0x7B6C	筬 (<CJK Ideograph>)
 3786	0x7B7B	筻 (<CJK Ideograph>)
 3787	0x7C12	簒 (<CJK Ideograph>)
 3788	0x7C1B	簛 (<CJK Ideograph>)
 3789	0x4260	䉠 (<CJK Ideograph Extension A>)
 3790	0x427A	䉺 (<CJK Ideograph Extension A>)
 3791	0x7C7B	类 (<CJK Ideograph>)
 3792	0x7C9C	粜 (<CJK Ideograph>)
 3793	0x428C	䊌 (<CJK Ideograph Extension A>)
 3794	0x7CB8	粸 (<CJK Ideograph>)
 3795	0x4294	䊔 (<CJK Ideograph Extension A>)
 3796	0x7CED	糭 (<CJK Ideograph>)
 3797	0x8F93	输 (<CJK Ideograph>)
 3798	0x70C0	烀 (<CJK Ideograph>)
 3799	0x20CCF	𠳏 (<CJK Ideograph Extension B>)
 3800	0x7DCF	総 (<CJK Ideograph>)
 3801	0x7DD4	緔 (<CJK Ideograph>)
 3802	0x7DD0	緐 (<CJK Ideograph>)
 3803	0x7DFD	緽 (<CJK Ideograph>)
 3804	0x7FAE	羮 (<CJK Ideograph>)
 3805	0x7FB4	羴 (<CJK Ideograph>)
 3806	0x729F	犟 (<CJK Ideograph>)
 3807	0x4397	䎗 (<CJK Ideograph Extension A>)
 3808	0x8020	耠 (<CJK Ideograph>)
 3809	0x8025	耥 (<CJK Ideograph>)
 3810	0x7B39	笹 (<CJK Ideograph>)
 3811	0x802E	耮 (<CJK Ideograph>)
 3812	0x8031	耱 (<CJK Ideograph>)
 3813	0x8054	联 (<CJK Ideograph>)
 3814	0x3DCC	㷌 (<CJK Ideograph Extension A>)
 3815	0x57B4	垴 (<CJK Ideograph>)
 3816	0x70A0	炠 (<CJK Ideograph>)
 3817	0x80B7	肷 (<CJK Ideograph>)
 3818	0x80E9	胩 (<CJK Ideograph>)
 3819	0x43ED	䏭 (<CJK Ideograph Extension A>)
 3820	0x810C	脌 (<CJK Ideograph>)
 3821	0x732A	猪 (<CJK Ideograph>)
 3822	0x810E	脎 (<CJK Ideograph>)
 3823	0x8112	脒 (<CJK Ideograph>)
 3824	0x7560	畠 (<CJK Ideograph>)
 3825	0x8114	脔 (<CJK Ideograph>)
 3826	0x4401	䐁 (<CJK Ideograph Extension A>)
 3827	0x3B39	㬹 (<CJK Ideograph Extension A>)
 3828	0x8156	腖 (<CJK Ideograph>)
 3829	0x8159	腙 (<CJK Ideograph>)
 3830	0x815A	腚 (<CJK Ideograph>)
 3831	0x4413	䐓 (<CJK Ideograph Extension A>)
 3832	0x583A	堺 (<CJK Ideograph>)
 3833	0x817C	腼 (<CJK Ideograph>)
 3834	0x8184	膄 (<CJK Ideograph>)
 3835	0x4425	䐥 (<CJK Ideograph Extension A>)
 3836	0x8193	膓 (<CJK Ideograph>)
 3837	0x442D	䐭 (<CJK Ideograph Extension A>)
 3838	0x81A5	膥 (<CJK Ideograph>)
 3839	0x57EF	埯 (<CJK Ideograph>)
 3840	0x81C1	臁 (<CJK Ideograph>)
 3841	0x81E4	臤 (<CJK Ideograph>)
 3842	0x8254	艔 (<CJK Ideograph>)
 3843	0x448F	䒏 (<CJK Ideograph Extension A>)
 3844	0x82A6	芦 (<CJK Ideograph>)
 3845	0x8276	艶 (<CJK Ideograph>)
 3846	0x82CA	苊 (<CJK Ideograph>)
 3847	0x82D8	苘 (<CJK Ideograph>)
 3848	0x82FF	苿 (<CJK Ideograph>)
 3849	0x44B0	䒰 (<CJK Ideograph Extension A>)
 3850	0x8357	荗 (<CJK Ideograph>)
 3851	0x9669	险 (<CJK Ideograph>)
 3852	0x698A	榊 (<CJK Ideograph>)
 3853	0x8405	萅 (<CJK Ideograph>)
 3854	0x70F5	烵 (<CJK Ideograph>)
 3855	0x8464	葤 (<CJK Ideograph>)
 3856	0x60E3	惣 (<CJK Ideograph>)
 3857	0x8488	蒈 (<CJK Ideograph>)
 3858	0x4504	䔄 (<CJK Ideograph Extension A>)
 3859	0x84BE	蒾 (<CJK Ideograph>)
 3860	0x84E1	蓡 (<CJK Ideograph>)
 3861	0x84F8	蓸 (<CJK Ideograph>)
 3862	0x8510	蔐 (<CJK Ideograph>)
 3863	0x8538	蔸 (<CJK Ideograph>)
 3864	0x8552	蕒 (<CJK Ideograph>)
 3865	0x453B	䔻 (<CJK Ideograph Extension A>)
 3866	0x856F	蕯 (<CJK Ideograph>)
 3867	0x8570	蕰 (<CJK Ideograph>)
 3868	0x85E0	藠 (<CJK Ideograph>)
 3869	0x4577	䕷 (<CJK Ideograph Extension A>)
 3870	0x8672	虲 (<CJK Ideograph>)
 3871	0x8692	蚒 (<CJK Ideograph>)
 3872	0x86B2	蚲 (<CJK Ideograph>)
 3873	0x86EF	蛯 (<CJK Ideograph>)
 3874	0x9645	际 (<CJK Ideograph>)
 3875	0x878B	螋 (<CJK Ideograph>)
 3876	0x4606	䘆 (<CJK Ideograph Extension A>)
 3877	0x4617	䘗 (<CJK Ideograph Extension A>)
 3878	0x88AE	袮 (<CJK Ideograph>)
 3879	0x88FF	裿 (<CJK Ideograph>)
 3880	0x8924	褤 (<CJK Ideograph>)
 3881	0x8947	襇 (<CJK Ideograph>)
 3882	0x8991	覑 (<CJK Ideograph>)
 3883	0x27967	𧥧 (<CJK Ideograph Extension B>)
 3884	0x8A29	訩 (<CJK Ideograph>)
 3885	0x8A38	訸 (<CJK Ideograph>)
 3886	0x8A94	誔 (<CJK Ideograph>)
 3887	0x8AB4	誴 (<CJK Ideograph>)
 3888	0x8C51	豑 (<CJK Ideograph>)
 3889	0x8CD4	賔 (<CJK Ideograph>)
 3890	0x8CF2	賲 (<CJK Ideograph>)
 3891	0x8D1C	贜 (<CJK Ideograph>)
 3892	0x4798	䞘 (<CJK Ideograph Extension A>)
 3893	0x585F	塟 (<CJK Ideograph>)
 3894	0x8DC3	跃 (<CJK Ideograph>)
 3895	0x47ED	䟭 (<CJK Ideograph Extension A>)
 3896	0x4EEE	仮 (<CJK Ideograph>)
 3897	0x8E3A	踺 (<CJK Ideograph>)
 3898	0x55D8	嗘 (<CJK Ideograph>)
 3899	0x5754	坔 (<CJK Ideograph>)
 3900	0x8E71	蹱 (<CJK Ideograph>)
 3901	0x55F5	嗵 (<CJK Ideograph>)
 3902	0x8EB0	躰 (<CJK Ideograph>)
 3903	0x4837	䠷 (<CJK Ideograph Extension A>)
 3904	0x8ECE	軎 (<CJK Ideograph>)
 3905	0x8EE2	転 (<CJK Ideograph>)
 3906	0x8EE4	軤 (<CJK Ideograph>)
 3907	0x8EED	軭 (<CJK Ideograph>)
 3908	0x8EF2	軲 (<CJK Ideograph>)
 3909	0x8FB7	辷 (<CJK Ideograph>)
 3910	0x8FC1	迁 (<CJK Ideograph>)
 3911	0x8FCA	迊 (<CJK Ideograph>)
 3912	0x8FCC	迌 (<CJK Ideograph>)
 3913	0x9033	逳 (<CJK Ideograph>)
 3914	0x99C4	駄 (<CJK Ideograph>)
 3915	0x48AD	䢭 (<CJK Ideograph Extension A>)
 3916	0x98E0	飠 (<CJK Ideograph>)
 3917	0x9213	鈓 (<CJK Ideograph>)
 3918	0x491E	䤞 (<CJK Ideograph Extension A>)
 3919	0x9228	鈨 (<CJK Ideograph>)
 3920	0x9258	鉘 (<CJK Ideograph>)
 3921	0x926B	鉫 (<CJK Ideograph>)
 3922	0x92B1	銱 (<CJK Ideograph>)
 3923	0x92AE	銮 (<CJK Ideograph>)
 3924	0x92BF	銿 (<CJK Ideograph>)
"#

/-- encoding_tables/whatwg/index-big5.txt:2835-2991 -/
noncomputable def index25 : List Text := lines! r#" 3925	0x92E3	鋣 (<CJK Ideograph>)
 3926	0x92EB	鋫 (<CJK Ideograph>)
 3927	0x92F3	鋳 (<CJK Ideograph>)
 3928	0x92F4	鋴 (<CJK Ideograph>)
 3929	0x92FD	鋽 (<CJK Ideograph>)
 3930	0x9343	鍃 (<CJK Ideograph>)
 3931	0x9384	鎄 (<CJK Ideograph>)
 3932	0x93AD	鎭 (<CJK Ideograph>)
 3933	0x4945	䥅 (<CJK Ideograph Extension A>)
 3934	0x4951	䥑 (<CJK Ideograph Extension A>)
 3935	0x9EBF	麿 (<CJK Ideograph>)
 3936	0x9417	鐗 (<CJK Ideograph>)
 3937	0x5301	匁 (<CJK Ideograph>)
 3938	0x941D	鐝 (<CJK Ideograph>)
 3939	0x942D	鐭 (<CJK Ideograph>)
 3940	0x943E	鐾 (<CJK Ideograph>)
 3941	0x496A	䥪 (<CJK Ideograph Extension A>)
 3942	0x9454	鑔 (<CJK Ideograph>)
 3943	0x9479	鑹 (<CJK Ideograph>)
 3944	0x952D	锭 (<CJK Ideograph>)
 3945	0x95A2	関 (<CJK Ideograph>)
 3946	0x49A7	䦧 (<CJK Ideograph Extension A>)
 3947	0x95F4	间 (<CJK Ideograph>)
 3948	0x9633	阳 (<CJK Ideograph>)
 3949	0x49E5	䧥 (<CJK Ideograph Extension A>)
 3950	0x67A0	枠 (<CJK Ideograph>)
 3951	0x4A24	䨤 (<CJK Ideograph Extension A>)
 3952	0x9740	靀 (<CJK Ideograph>)
 3953	0x4A35	䨵 (<CJK Ideograph Extension A>)
 3954	0x97B2	鞲 (<CJK Ideograph>)
 3955	0x97C2	韂 (<CJK Ideograph>)
 3956	0x5654	噔 (<CJK Ideograph>)
 3957	0x4AE4	䫤 (<CJK Ideograph Extension A>)
 3958	0x60E8	惨 (<CJK Ideograph>)
 3959	0x98B9	颹 (<CJK Ideograph>)
 3960	0x4B19	䬙 (<CJK Ideograph Extension A>)
 3961	0x98F1	飱 (<CJK Ideograph>)
 3962	0x5844	塄 (<CJK Ideograph>)
 3963	0x990E	餎 (<CJK Ideograph>)
 3964	0x9919	餙 (<CJK Ideograph>)
 3965	0x51B4	冴 (<CJK Ideograph>)
 3966	0x991C	餜 (<CJK Ideograph>)
 3967	0x9937	餷 (<CJK Ideograph>)
 3968	0x9942	饂 (<CJK Ideograph>)
 3969	0x995D	饝 (<CJK Ideograph>)
 3970	0x9962	饢 (<CJK Ideograph>)
 3971	0x4B70	䭰 (<CJK Ideograph Extension A>)
 3972	0x99C5	駅 (<CJK Ideograph>)
 3973	0x4B9D	䮝 (<CJK Ideograph Extension A>)
 3974	0x9A3C	騼 (<CJK Ideograph>)
 3975	0x9B0F	鬏 (<CJK Ideograph>)
 3976	0x7A83	窃 (<CJK Ideograph>)
 3977	0x9B69	魩 (<CJK Ideograph>)
 3978	0x9B81	鮁 (<CJK Ideograph>)
 3979	0x9BDD	鯝 (<CJK Ideograph>)
 3980	0x9BF1	鯱 (<CJK Ideograph>)
 3981	0x9BF4	鯴 (<CJK Ideograph>)
 3982	0x4C6D	䱭 (<CJK Ideograph Extension A>)
 3983	0x9C20	鰠 (<CJK Ideograph>)
 3984	0x376F	㝯 (<CJK Ideograph Extension A>)
 3985	0x21BC2	𡯂 (<CJK Ideograph Extension B>)
 3986	0x9D49	鵉 (<CJK Ideograph>)
 3987	0x9C3A	鰺 (<CJK Ideograph>)
 3988	0x9EFE	黾 (<CJK Ideograph>)
 3989	0x5650	噐 (<CJK Ideograph>)
 3990	0x9D93	鶓 (<CJK Ideograph>)
 3991	0x9DBD	鶽 (<CJK Ideograph>)
 3992	0x9DC0	鷀 (<CJK Ideograph>)
 3993	0x9DFC	鷼 (<CJK Ideograph>)
 3994	0x94F6	银 (<CJK Ideograph>)
 3995	0x8FB6	辶 (<CJK Ideograph>)
 3996	0x9E7B	鹻 (<CJK Ideograph>)
 3997	0x9EAC	麬 (<CJK Ideograph>)
 3998	0x9EB1	麱 (<CJK Ideograph>)
 3999	0x9EBD	麽 (<CJK Ideograph>)
 4000	0x9EC6	黆 (<CJK Ideograph>)
 4001	0x94DC	铜 (<CJK Ideograph>)
 4002	0x9EE2	黢 (<CJK Ideograph>)
 4003	0x9EF1	黱 (<CJK Ideograph>)
 4004	0x9EF8	黸 (<CJK Ideograph>)
 4005	0x7AC8	竈 (<CJK Ideograph>)
 4006	0x9F44	齄 (<CJK Ideograph>)
 4007	0x20094	𠂔 (<CJK Ideograph Extension B>)
 4008	0x202B7	𠊷 (<CJK Ideograph Extension B>)
 4009	0x203A0	𠎠 (<CJK Ideograph Extension B>)
 4010	0x691A	椚 (<CJK Ideograph>)
 4011	0x94C3	铃 (<CJK Ideograph>)
 4012	0x59AC	妬 (<CJK Ideograph>)
 4013	0x204D7	𠓗 (<CJK Ideograph Extension B>)
 4014	0x5840	塀 (<CJK Ideograph>)
 4015	0x94C1	铁 (<CJK Ideograph>)
 4016	0x37B9	㞹 (<CJK Ideograph Extension A>)
 4017	0x205D5	𠗕 (<CJK Ideograph Extension B>)
 4018	0x20615	𠘕 (<CJK Ideograph Extension B>)
 4019	0x20676	𠙶 (<CJK Ideograph Extension B>)
 4020	0x216BA	𡚺 (<CJK Ideograph Extension B>)
 4021	0x5757	块 (<CJK Ideograph>)
 4022	0x7173	煳 (<CJK Ideograph>)
 4023	0x20AC2	𠫂 (<CJK Ideograph Extension B>)
 4024	0x20ACD	𠫍 (<CJK Ideograph Extension B>)
 4025	0x20BBF	𠮿 (<CJK Ideograph Extension B>)
 4026	0x546A	呪 (<CJK Ideograph>)
 4027	0x2F83B	吆 (CJK COMPATIBILITY IDEOGRAPH-2F83B)
 4028	0x20BCB	𠯋 (<CJK Ideograph Extension B>)
 4029	0x549E	咞 (<CJK Ideograph>)
 4030	0x20BFB	𠯻 (<CJK Ideograph Extension B>)
 4031	0x20C3B	𠰻 (<CJK Ideograph Extension B>)
 4032	0x20C53	𠱓 (<CJK Ideograph Extension B>)
 4033	0x20C65	𠱥 (<CJK Ideograph Extension B>)
 4034	0x20C7C	𠱼 (<CJK Ideograph Extension B>)
 4035	0x60E7	惧 (<CJK Ideograph>)
 4036	0x20C8D	𠲍 (<CJK Ideograph Extension B>)
 4037	0x567A	噺 (<CJK Ideograph>)
 4038	0x20CB5	𠲵 (<CJK Ideograph Extension B>)
 4039	0x20CDD	𠳝 (<CJK Ideograph Extension B>)
 4040	0x20CED	𠳭 (<CJK Ideograph Extension B>)
 4041	0x20D6F	𠵯 (<CJK Ideograph Extension B>)
 4042	0x20DB2	𠶲 (<CJK Ideograph Extension B>)
 4043	0x20DC8	𠷈 (<CJK Ideograph Extension B>)
 4044	0x6955	楕 (<CJK Ideograph>)
 4045	0x9C2F	鰯 (<CJK Ideograph>)
 4046	0x87A5	螥 (<CJK Ideograph>)
 4047	0x20E04	𠸄 (<CJK Ideograph Extension B>)
 4048	0x20E0E	𠸎 (<CJK Ideograph Extension B>)
 4049	0x20ED7	𠻗 (<CJK Ideograph Extension B>)
 4050	0x20F90	𠾐 (<CJK Ideograph Extension B>)
 4051	0x20F2D	𠼭 (<CJK Ideograph Extension B>)
 4052	0x20E73	𠹳 (<CJK Ideograph Extension B>)
 4053	0x5C20	尠 (<CJK Ideograph>)
 4054	0x20FBC	𠾼 (<CJK Ideograph Extension B>)
 4055	0x5E0B	帋 (<CJK Ideograph>)
 4056	0x2105C	𡁜 (<CJK Ideograph Extension B>)
 4057	0x2104F	𡁏 (<CJK Ideograph Extension B>)
 4058	0x21076	𡁶 (<CJK Ideograph Extension B>)
 4059	0x671E	朞 (<CJK Ideograph>)
 4060	0x2107B	𡁻 (<CJK Ideograph Extension B>)
 4061	0x21088	𡂈 (<CJK Ideograph Extension B>)
 4062	0x21096	𡂖 (<CJK Ideograph Extension B>)
 4063	0x3647	㙇 (<CJK Ideograph Extension A>)
 4064	0x210BF	𡂿 (<CJK Ideograph Extension B>)
 4065	0x210D3	𡃓 (<CJK Ideograph Extension B>)
 4066	0x2112F	𡄯 (<CJK Ideograph Extension B>)
 4067	0x2113B	𡄻 (<CJK Ideograph Extension B>)
 4068	0x5364	卤 (<CJK Ideograph>)
 4069	0x84AD	蒭 (<CJK Ideograph>)
 4070	0x212E3	𡋣 (<CJK Ideograph Extension B>)
 4071	0x21375	𡍵 (<CJK Ideograph Extension B>)
 4072	0x21336	𡌶 (<CJK Ideograph Extension B>)
 4073	0x8B81	讁 (<CJK Ideograph>)
 4074	0x21577	𡕷 (<CJK Ideograph Extension B>)
 4075	0x21619	𡘙 (<CJK Ideograph Extension B>)
 4076	0x217C3	𡟃 (<CJK Ideograph Extension B>)
 4077	0x217C7	𡟇 (<CJK Ideograph Extension B>)
 4078	0x4E78	乸 (<CJK Ideograph>)
 4079	0x70BB	炻 (<CJK Ideograph>)
 4080	0x2182D	𡠭 (<CJK Ideograph Extension B>)
 4081	0x2196A	𡥪 (<CJK Ideograph Extension B>)
"#

/-- encoding_tables/whatwg/index-big5.txt:2992-3147 -/
noncomputable def index26 : List Text := lines! r#" 4082	0x21A2D	𡨭 (<CJK Ideograph Extension B>)
 4083	0x21A45	𡩅 (<CJK Ideograph Extension B>)
 4084	0x21C2A	𡰪 (<CJK Ideograph Extension B>)
 4085	0x21C70	𡱰 (<CJK Ideograph Extension B>)
 4086	0x21CAC	𡲬 (<CJK Ideograph Extension B>)
 4087	0x21EC8	𡻈 (<CJK Ideograph Extension B>)
 4088	0x62C3	拃 (<CJK Ideograph>)
 4089	0x21ED5	𡻕 (<CJK Ideograph Extension B>)
 4090	0x21F15	𡼕 (<CJK Ideograph Extension B>)
 4091	0x7198	熘 (<CJK Ideograph>)
 4092	0x6855	桕 (<CJK Ideograph>)
 4093	0x22045	𢁅 (<CJK Ideograph Extension B>)
 4094	0x69E9	槩 (<CJK Ideograph>)
 4095	0x36C8	㛈 (<CJK Ideograph Extension A>)
 4096	0x2227C	𢉼 (<CJK Ideograph Extension B>)
 4097	0x223D7	𢏗 (<CJK Ideograph Extension B>)
 4098	0x223FA	𢏺 (<CJK Ideograph Extension B>)
 4099	0x2272A	𢜪 (<CJK Ideograph Extension B>)
 4100	0x22871	𢡱 (<CJK Ideograph Extension B>)
 4101	0x2294F	𢥏 (<CJK Ideograph Extension B>)
 4102	0x82FD	苽 (<CJK Ideograph>)
 4103	0x22967	𢥧 (<CJK Ideograph Extension B>)
 4104	0x22993	𢦓 (<CJK Ideograph Extension B>)
 4105	0x22AD5	𢫕 (<CJK Ideograph Extension B>)
 4106	0x89A5	覥 (<CJK Ideograph>)
 4107	0x22AE8	𢫨 (<CJK Ideograph Extension B>)
 4108	0x8FA0	辠 (<CJK Ideograph>)
 4109	0x22B0E	𢬎 (<CJK Ideograph Extension B>)
 4110	0x97B8	鞸 (<CJK Ideograph>)
 4111	0x22B3F	𢬿 (<CJK Ideograph Extension B>)
 4112	0x9847	顇 (<CJK Ideograph>)
 4113	0x9ABD	骽 (<CJK Ideograph>)
 4114	0x22C4C	𢱌 (<CJK Ideograph Extension B>)
 4116	0x22C88	𢲈 (<CJK Ideograph Extension B>)
 4117	0x22CB7	𢲷 (<CJK Ideograph Extension B>)
 4118	0x25BE8	𥯨 (<CJK Ideograph Extension B>)
 4119	0x22D08	𢴈 (<CJK Ideograph Extension B>)
 4120	0x22D12	𢴒 (<CJK Ideograph Extension B>)
 4121	0x22DB7	𢶷 (<CJK Ideograph Extension B>)
 4122	0x22D95	𢶕 (<CJK Ideograph Extension B>)
 4123	0x22E42	𢹂 (<CJK Ideograph Extension B>)
 4124	0x22F74	𢽴 (<CJK Ideograph Extension B>)
 4125	0x22FCC	𢿌 (<CJK Ideograph Extension B>)
 4126	0x23033	𣀳 (<CJK Ideograph Extension B>)
 4127	0x23066	𣁦 (<CJK Ideograph Extension B>)
 4128	0x2331F	𣌟 (<CJK Ideograph Extension B>)
 4129	0x233DE	𣏞 (<CJK Ideograph Extension B>)
 4130	0x5FB1	徱 (<CJK Ideograph>)
 4131	0x6648	晈 (<CJK Ideograph>)
 4132	0x66BF	暿 (<CJK Ideograph>)
 4133	0x27A79	𧩹 (<CJK Ideograph Extension B>)
 4134	0x23567	𣕧 (<CJK Ideograph Extension B>)
 4135	0x235F3	𣗳 (<CJK Ideograph Extension B>)
 4136	0x7201	爁 (<CJK Ideograph>)
 4137	0x249BA	𤦺 (<CJK Ideograph Extension B>)
 4138	0x77D7	矗 (<CJK Ideograph>)
 4139	0x2361A	𣘚 (<CJK Ideograph Extension B>)
 4140	0x23716	𣜖 (<CJK Ideograph Extension B>)
 4141	0x7E87	纇 (<CJK Ideograph>)
 4142	0x20346	𠍆 (<CJK Ideograph Extension B>)
 4143	0x58B5	墵 (<CJK Ideograph>)
 4144	0x670E	朎 (<CJK Ideograph>)
 4145	0x6918	椘 (<CJK Ideograph>)
 4146	0x23AA7	𣪧 (<CJK Ideograph Extension B>)
 4147	0x27657	𧙗 (<CJK Ideograph Extension B>)
 4148	0x25FE2	𥿢 (<CJK Ideograph Extension B>)
 4149	0x23E11	𣸑 (<CJK Ideograph Extension B>)
 4150	0x23EB9	𣺹 (<CJK Ideograph Extension B>)
 4151	0x275FE	𧗾 (<CJK Ideograph Extension B>)
 4152	0x2209A	𢂚 (<CJK Ideograph Extension B>)
 4153	0x48D0	䣐 (<CJK Ideograph Extension A>)
 4154	0x4AB8	䪸 (<CJK Ideograph Extension A>)
 4155	0x24119	𤄙 (<CJK Ideograph Extension B>)
 4156	0x28A9A	𨪚 (<CJK Ideograph Extension B>)
 4157	0x242EE	𤋮 (<CJK Ideograph Extension B>)
 4158	0x2430D	𤌍 (<CJK Ideograph Extension B>)
 4159	0x2403B	𤀻 (<CJK Ideograph Extension B>)
 4160	0x24334	𤌴 (<CJK Ideograph Extension B>)
 4161	0x24396	𤎖 (<CJK Ideograph Extension B>)
 4162	0x24A45	𤩅 (<CJK Ideograph Extension B>)
 4163	0x205CA	𠗊 (<CJK Ideograph Extension B>)
 4164	0x51D2	凒 (<CJK Ideograph>)
 4165	0x20611	𠘑 (<CJK Ideograph Extension B>)
 4166	0x599F	妟 (<CJK Ideograph>)
 4167	0x21EA8	𡺨 (<CJK Ideograph Extension B>)
 4168	0x3BBE	㮾 (<CJK Ideograph Extension A>)
 4169	0x23CFF	𣳿 (<CJK Ideograph Extension B>)
 4170	0x24404	𤐄 (<CJK Ideograph Extension B>)
 4171	0x244D6	𤓖 (<CJK Ideograph Extension B>)
 4172	0x5788	垈 (<CJK Ideograph>)
 4173	0x24674	𤙴 (<CJK Ideograph Extension B>)
 4174	0x399B	㦛 (<CJK Ideograph Extension A>)
 4175	0x2472F	𤜯 (<CJK Ideograph Extension B>)
 4176	0x285E8	𨗨 (<CJK Ideograph Extension B>)
 4177	0x299C9	𩧉 (<CJK Ideograph Extension B>)
 4178	0x3762	㝢 (<CJK Ideograph Extension A>)
 4179	0x221C3	𢇃 (<CJK Ideograph Extension B>)
 4180	0x8B5E	譞 (<CJK Ideograph>)
 4181	0x28B4E	𨭎 (<CJK Ideograph Extension B>)
 4182	0x99D6	駖 (<CJK Ideograph>)
 4183	0x24812	𤠒 (<CJK Ideograph Extension B>)
 4184	0x248FB	𤣻 (<CJK Ideograph Extension B>)
 4185	0x24A15	𤨕 (<CJK Ideograph Extension B>)
 4186	0x7209	爉 (<CJK Ideograph>)
 4187	0x24AC0	𤫀 (<CJK Ideograph Extension B>)
 4188	0x20C78	𠱸 (<CJK Ideograph Extension B>)
 4189	0x5965	奥 (<CJK Ideograph>)
 4190	0x24EA5	𤺥 (<CJK Ideograph Extension B>)
 4191	0x24F86	𤾆 (<CJK Ideograph Extension B>)
 4192	0x20779	𠝹 (<CJK Ideograph Extension B>)
 4193	0x8EDA	軚 (<CJK Ideograph>)
 4194	0x2502C	𥀬 (<CJK Ideograph Extension B>)
 4195	0x528F	劏 (<CJK Ideograph>)
 4196	0x573F	圿 (<CJK Ideograph>)
 4197	0x7171	煱 (<CJK Ideograph>)
 4198	0x25299	𥊙 (<CJK Ideograph Extension B>)
 4199	0x25419	𥐙 (<CJK Ideograph Extension B>)
 4200	0x23F4A	𣽊 (<CJK Ideograph Extension B>)
 4201	0x24AA7	𤪧 (<CJK Ideograph Extension B>)
 4202	0x55BC	喼 (<CJK Ideograph>)
 4203	0x25446	𥑆 (<CJK Ideograph Extension B>)
 4204	0x2546E	𥑮 (<CJK Ideograph Extension B>)
 4205	0x26B52	𦭒 (<CJK Ideograph Extension B>)
 4206	0x91D4	釔 (<CJK Ideograph>)
 4207	0x3473	㑳 (<CJK Ideograph Extension A>)
 4208	0x2553F	𥔿 (<CJK Ideograph Extension B>)
 4209	0x27632	𧘲 (<CJK Ideograph Extension B>)
 4210	0x2555E	𥕞 (<CJK Ideograph Extension B>)
 4211	0x4718	䜘 (<CJK Ideograph Extension A>)
 4212	0x25562	𥕢 (<CJK Ideograph Extension B>)
 4213	0x25566	𥕦 (<CJK Ideograph Extension B>)
 4214	0x257C7	𥟇 (<CJK Ideograph Extension B>)
 4215	0x2493F	𤤿 (<CJK Ideograph Extension B>)
 4216	0x2585D	𥡝 (<CJK Ideograph Extension B>)
 4217	0x5066	偦 (<CJK Ideograph>)
 4218	0x34FB	㓻 (<CJK Ideograph Extension A>)
 4219	0x233CC	𣏌 (<CJK Ideograph Extension B>)
 4220	0x60DE	惞 (<CJK Ideograph>)
 4221	0x25903	𥤃 (<CJK Ideograph Extension B>)
 4222	0x477C	䝼 (<CJK Ideograph Extension A>)
 4223	0x28948	𨥈 (<CJK Ideograph Extension B>)
 4224	0x25AAE	𥪮 (<CJK Ideograph Extension B>)
 4225	0x25B89	𥮉 (<CJK Ideograph Extension B>)
 4226	0x25C06	𥰆 (<CJK Ideograph Extension B>)
 4227	0x21D90	𡶐 (<CJK Ideograph Extension B>)
 4228	0x57A1	垡 (<CJK Ideograph>)
 4229	0x7151	煑 (<CJK Ideograph>)
 4230	0x6FB6	澶 (<CJK Ideograph>)
 4231	0x26102	𦄂 (<CJK Ideograph Extension B>)
 4232	0x27C12	𧰒 (<CJK Ideograph Extension B>)
 4233	0x9056	遖 (<CJK Ideograph>)
 4234	0x261B2	𦆲 (<CJK Ideograph Extension B>)
 4235	0x24F9A	𤾚 (<CJK Ideograph Extension B>)
 4236	0x8B62	譢 (<CJK Ideograph>)
 4237	0x26402	𦐂 (<CJK Ideograph Extension B>)
 4238	0x2644A	𦑊 (<CJK Ideograph Extension B>)
"#

/-- encoding_tables/whatwg/index-big5.txt:3148-3304 -/
noncomputable def index27 : List Text := lines! r#" 4239	0x5D5B	嵛 (<CJK Ideograph>)
 4240	0x26BF7	𦯷 (<CJK Ideograph Extension B>)
 4241	0x8F36	輶 (<CJK Ideograph>)
 4242	0x26484	𦒄 (<CJK Ideograph Extension B>)
 4243	0x2191C	𡤜 (<CJK Ideograph Extension B>)
 4244	0x8AEA	諪 (<CJK Ideograph>)
 4245	0x249F6	𤧶 (<CJK Ideograph Extension B>)
 4246	0x26488	𦒈 (<CJK Ideograph Extension B>)
 4247	0x23FEF	𣿯 (<CJK Ideograph Extension B>)
 4248	0x26512	𦔒 (<CJK Ideograph Extension B>)
 4249	0x4BC0	䯀 (<CJK Ideograph Extension A>)
 4250	0x265BF	𦖿 (<CJK Ideograph Extension B>)
 4251	0x266B5	𦚵 (<CJK Ideograph Extension B>)
 4252	0x2271B	𢜛 (<CJK Ideograph Extension B>)
 4253	0x9465	鑥 (<CJK Ideograph>)
 4254	0x257E1	𥟡 (<CJK Ideograph Extension B>)
 4255	0x6195	憕 (<CJK Ideograph>)
 4256	0x5A27	娧 (<CJK Ideograph>)
 4257	0x2F8CD	晉 (CJK COMPATIBILITY IDEOGRAPH-2F8CD)
 4258	0x4FBB	侻 (<CJK Ideograph>)
 4259	0x56B9	嚹 (<CJK Ideograph>)
 4260	0x24521	𤔡 (<CJK Ideograph Extension B>)
 4261	0x266FC	𦛼 (<CJK Ideograph Extension B>)
 4262	0x4E6A	乪 (<CJK Ideograph>)
 4263	0x24934	𤤴 (<CJK Ideograph Extension B>)
 4264	0x9656	陖 (<CJK Ideograph>)
 4265	0x6D8F	涏 (<CJK Ideograph>)
 4266	0x26CBD	𦲽 (<CJK Ideograph Extension B>)
 4267	0x3618	㘘 (<CJK Ideograph Extension A>)
 4268	0x8977	襷 (<CJK Ideograph>)
 4269	0x26799	𦞙 (<CJK Ideograph Extension B>)
 4270	0x2686E	𦡮 (<CJK Ideograph Extension B>)
 4271	0x26411	𦐑 (<CJK Ideograph Extension B>)
 4272	0x2685E	𦡞 (<CJK Ideograph Extension B>)
 4273	0x71DF	營 (<CJK Ideograph>)
 4274	0x268C7	𦣇 (<CJK Ideograph Extension B>)
 4275	0x7B42	筂 (<CJK Ideograph>)
 4276	0x290C0	𩃀 (<CJK Ideograph Extension B>)
 4277	0x20A11	𠨑 (<CJK Ideograph Extension B>)
 4278	0x26926	𦤦 (<CJK Ideograph Extension B>)
 4279	0x9104	鄄 (<CJK Ideograph>)
 4280	0x26939	𦤹 (<CJK Ideograph Extension B>)
 4281	0x7A45	穅 (<CJK Ideograph>)
 4282	0x9DF0	鷰 (<CJK Ideograph>)
 4283	0x269FA	𦧺 (<CJK Ideograph Extension B>)
 4284	0x9A26	騦 (<CJK Ideograph>)
 4285	0x26A2D	𦨭 (<CJK Ideograph Extension B>)
 4286	0x365F	㙟 (<CJK Ideograph Extension A>)
 4287	0x26469	𦑩 (<CJK Ideograph Extension B>)
 4288	0x20021	𠀡 (<CJK Ideograph Extension B>)
 4289	0x7983	禃 (<CJK Ideograph>)
 4290	0x26A34	𦨴 (<CJK Ideograph Extension B>)
 4291	0x26B5B	𦭛 (<CJK Ideograph Extension B>)
 4292	0x5D2C	崬 (<CJK Ideograph>)
 4293	0x23519	𣔙 (<CJK Ideograph Extension B>)
 4294	0x83CF	菏 (<CJK Ideograph>)
 4295	0x26B9D	𦮝 (<CJK Ideograph Extension B>)
 4296	0x46D0	䛐 (<CJK Ideograph Extension A>)
 4297	0x26CA4	𦲤 (<CJK Ideograph Extension B>)
 4298	0x753B	画 (<CJK Ideograph>)
 4299	0x8865	补 (<CJK Ideograph>)
 4300	0x26DAE	𦶮 (<CJK Ideograph Extension B>)
 4301	0x58B6	墶 (<CJK Ideograph>)
 4302	0x371C	㜜 (<CJK Ideograph Extension A>)
 4303	0x2258D	𢖍 (<CJK Ideograph Extension B>)
 4304	0x2704B	𧁋 (<CJK Ideograph Extension B>)
 4305	0x271CD	𧇍 (<CJK Ideograph Extension B>)
 4306	0x3C54	㱔 (<CJK Ideograph Extension A>)
 4307	0x27280	𧊀 (<CJK Ideograph Extension B>)
 4308	0x27285	𧊅 (<CJK Ideograph Extension B>)
 4309	0x9281	銁 (<CJK Ideograph>)
 4310	0x2217A	𢅺 (<CJK Ideograph Extension B>)
 4311	0x2728B	𧊋 (<CJK Ideograph Extension B>)
 4312	0x9330	錰 (<CJK Ideograph>)
 4313	0x272E6	𧋦 (<CJK Ideograph Extension B>)
 4314	0x249D0	𤧐 (<CJK Ideograph Extension B>)
 4315	0x6C39	氹 (<CJK Ideograph>)
 4316	0x949F	钟 (<CJK Ideograph>)
 4317	0x27450	𧑐 (<CJK Ideograph Extension B>)
 4318	0x20EF8	𠻸 (<CJK Ideograph Extension B>)
 4319	0x8827	蠧 (<CJK Ideograph>)
 4320	0x88F5	裵 (<CJK Ideograph>)
 4321	0x22926	𢤦 (<CJK Ideograph Extension B>)
 4322	0x28473	𨑳 (<CJK Ideograph Extension B>)
 4323	0x217B1	𡞱 (<CJK Ideograph Extension B>)
 4324	0x6EB8	溸 (<CJK Ideograph>)
 4325	0x24A2A	𤨪 (<CJK Ideograph Extension B>)
 4326	0x21820	𡠠 (<CJK Ideograph Extension B>)
 4327	0x39A4	㦤 (<CJK Ideograph Extension A>)
 4328	0x36B9	㚹 (<CJK Ideograph Extension A>)
 4329	0x5C10	尐 (<CJK Ideograph>)
 4330	0x79E3	秣 (<CJK Ideograph>)
 4331	0x453F	䔿 (<CJK Ideograph Extension A>)
 4332	0x66B6	暶 (<CJK Ideograph>)
 4333	0x29CAD	𩲭 (<CJK Ideograph Extension B>)
 4334	0x298A4	𩢤 (<CJK Ideograph Extension B>)
 4335	0x8943	襃 (<CJK Ideograph>)
 4336	0x277CC	𧟌 (<CJK Ideograph Extension B>)
 4337	0x27858	𧡘 (<CJK Ideograph Extension B>)
 4338	0x56D6	囖 (<CJK Ideograph>)
 4339	0x40DF	䃟 (<CJK Ideograph Extension A>)
 4340	0x2160A	𡘊 (<CJK Ideograph Extension B>)
 4341	0x39A1	㦡 (<CJK Ideograph Extension A>)
 4342	0x2372F	𣜯 (<CJK Ideograph Extension B>)
 4343	0x280E8	𨃨 (<CJK Ideograph Extension B>)
 4344	0x213C5	𡏅 (<CJK Ideograph Extension B>)
 4345	0x71AD	熭 (<CJK Ideograph>)
 4346	0x8366	荦 (<CJK Ideograph>)
 4347	0x279DD	𧧝 (<CJK Ideograph Extension B>)
 4348	0x291A8	𩆨 (<CJK Ideograph Extension B>)
 4349	0x5A67	婧 (<CJK Ideograph>)
 4350	0x4CB7	䲷 (<CJK Ideograph Extension A>)
 4351	0x270AF	𧂯 (<CJK Ideograph Extension B>)
 4352	0x289AB	𨦫 (<CJK Ideograph Extension B>)
 4353	0x279FD	𧧽 (<CJK Ideograph Extension B>)
 4354	0x27A0A	𧨊 (<CJK Ideograph Extension B>)
 4355	0x27B0B	𧬋 (<CJK Ideograph Extension B>)
 4356	0x27D66	𧵦 (<CJK Ideograph Extension B>)
 4357	0x2417A	𤅺 (<CJK Ideograph Extension B>)
 4358	0x7B43	筃 (<CJK Ideograph>)
 4359	0x797E	祾 (<CJK Ideograph>)
 4360	0x28009	𨀉 (<CJK Ideograph Extension B>)
 4361	0x6FB5	澵 (<CJK Ideograph>)
 4362	0x2A2DF	𪋟 (<CJK Ideograph Extension B>)
 4363	0x6A03	樃 (<CJK Ideograph>)
 4364	0x28318	𨌘 (<CJK Ideograph Extension B>)
 4365	0x53A2	厢 (<CJK Ideograph>)
 4366	0x26E07	𦸇 (<CJK Ideograph Extension B>)
 4367	0x93BF	鎿 (<CJK Ideograph>)
 4368	0x6836	栶 (<CJK Ideograph>)
 4369	0x975D	靝 (<CJK Ideograph>)
 4370	0x2816F	𨅯 (<CJK Ideograph Extension B>)
 4371	0x28023	𨀣 (<CJK Ideograph Extension B>)
 4372	0x269B5	𦦵 (<CJK Ideograph Extension B>)
 4373	0x213ED	𡏭 (<CJK Ideograph Extension B>)
 4374	0x2322F	𣈯 (<CJK Ideograph Extension B>)
 4375	0x28048	𨁈 (<CJK Ideograph Extension B>)
 4376	0x5D85	嶅 (<CJK Ideograph>)
 4377	0x28C30	𨰰 (<CJK Ideograph Extension B>)
 4378	0x28083	𨂃 (<CJK Ideograph Extension B>)
 4379	0x5715	圕 (<CJK Ideograph>)
 4380	0x9823	頣 (<CJK Ideograph>)
 4381	0x28949	𨥉 (<CJK Ideograph Extension B>)
 4382	0x5DAB	嶫 (<CJK Ideograph>)
 4383	0x24988	𤦈 (<CJK Ideograph Extension B>)
 4384	0x65BE	斾 (<CJK Ideograph>)
 4385	0x69D5	槕 (<CJK Ideograph>)
 4386	0x53D2	叒 (<CJK Ideograph>)
 4387	0x24AA5	𤪥 (<CJK Ideograph Extension B>)
 4388	0x23F81	𣾁 (<CJK Ideograph Extension B>)
 4389	0x3C11	㰑 (<CJK Ideograph Extension A>)
 4390	0x6736	朶 (<CJK Ideograph>)
 4391	0x28090	𨂐 (<CJK Ideograph Extension B>)
 4392	0x280F4	𨃴 (<CJK Ideograph Extension B>)
 4393	0x2812E	𨄮 (<CJK Ideograph Extension B>)
 4394	0x21FA1	𡾡 (<CJK Ideograph Extension B>)
 4395	0x2814F	𨅏 (<CJK Ideograph Extension B>)
"#

/-- encoding_tables/whatwg/index-big5.txt:3305-3461 -/
noncomputable def index28 : List Text := lines! r#" 4396	0x28189	𨆉 (<CJK Ideograph Extension B>)
 4397	0x281AF	𨆯 (<CJK Ideograph Extension B>)
 4398	0x2821A	𨈚 (<CJK Ideograph Extension B>)
 4399	0x28306	𨌆 (<CJK Ideograph Extension B>)
 4400	0x2832F	𨌯 (<CJK Ideograph Extension B>)
 4401	0x2838A	𨎊 (<CJK Ideograph Extension B>)
 4402	0x35CA	㗊 (<CJK Ideograph Extension A>)
 4403	0x28468	𨑨 (<CJK Ideograph Extension B>)
 4404	0x286AA	𨚪 (<CJK Ideograph Extension B>)
 4405	0x48FA	䣺 (<CJK Ideograph Extension A>)
 4406	0x63E6	揦 (<CJK Ideograph>)
 4407	0x28956	𨥖 (<CJK Ideograph Extension B>)
 4408	0x7808	砈 (<CJK Ideograph>)
 4409	0x9255	鉕 (<CJK Ideograph>)
 4410	0x289B8	𨦸 (<CJK Ideograph Extension B>)
 4411	0x43F2	䏲 (<CJK Ideograph Extension A>)
 4412	0x289E7	𨧧 (<CJK Ideograph Extension B>)
 4413	0x43DF	䏟 (<CJK Ideograph Extension A>)
 4414	0x289E8	𨧨 (<CJK Ideograph Extension B>)
 4415	0x28B46	𨭆 (<CJK Ideograph Extension B>)
 4416	0x28BD4	𨯔 (<CJK Ideograph Extension B>)
 4417	0x59F8	姸 (<CJK Ideograph>)
 4418	0x28C09	𨰉 (<CJK Ideograph Extension B>)
 4419	0x8F0B	輋 (<CJK Ideograph>)
 4420	0x28FC5	𨿅 (<CJK Ideograph Extension B>)
 4421	0x290EC	𩃬 (<CJK Ideograph Extension B>)
 4422	0x7B51	筑 (<CJK Ideograph>)
 4423	0x29110	𩄐 (<CJK Ideograph Extension B>)
 4424	0x2913C	𩄼 (<CJK Ideograph Extension B>)
 4425	0x3DF7	㷷 (<CJK Ideograph Extension A>)
 4426	0x2915E	𩅞 (<CJK Ideograph Extension B>)
 4427	0x24ACA	𤫊 (<CJK Ideograph Extension B>)
 4428	0x8FD0	运 (<CJK Ideograph>)
 4429	0x728F	犏 (<CJK Ideograph>)
 4430	0x568B	嚋 (<CJK Ideograph>)
 4431	0x294E7	𩓧 (<CJK Ideograph Extension B>)
 4432	0x295E9	𩗩 (<CJK Ideograph Extension B>)
 4433	0x295B0	𩖰 (<CJK Ideograph Extension B>)
 4434	0x295B8	𩖸 (<CJK Ideograph Extension B>)
 4435	0x29732	𩜲 (<CJK Ideograph Extension B>)
 4436	0x298D1	𩣑 (<CJK Ideograph Extension B>)
 4437	0x29949	𩥉 (<CJK Ideograph Extension B>)
 4438	0x2996A	𩥪 (<CJK Ideograph Extension B>)
 4439	0x299C3	𩧃 (<CJK Ideograph Extension B>)
 4440	0x29A28	𩨨 (<CJK Ideograph Extension B>)
 4441	0x29B0E	𩬎 (<CJK Ideograph Extension B>)
 4442	0x29D5A	𩵚 (<CJK Ideograph Extension B>)
 4443	0x29D9B	𩶛 (<CJK Ideograph Extension B>)
 4444	0x7E9F	纟 (<CJK Ideograph>)
 4445	0x29EF8	𩻸 (<CJK Ideograph Extension B>)
 4446	0x29F23	𩼣 (<CJK Ideograph Extension B>)
 4447	0x4CA4	䲤 (<CJK Ideograph Extension A>)
 4448	0x9547	镇 (<CJK Ideograph>)
 4449	0x2A293	𪊓 (<CJK Ideograph Extension B>)
 4450	0x71A2	熢 (<CJK Ideograph>)
 4451	0x2A2FF	𪋿 (<CJK Ideograph Extension B>)
 4452	0x4D91	䶑 (<CJK Ideograph Extension A>)
 4453	0x9012	递 (<CJK Ideograph>)
 4454	0x2A5CB	𪗋 (<CJK Ideograph Extension B>)
 4455	0x4D9C	䶜 (<CJK Ideograph Extension A>)
 4456	0x20C9C	𠲜 (<CJK Ideograph Extension B>)
 4457	0x8FBE	达 (<CJK Ideograph>)
 4458	0x55C1	嗁 (<CJK Ideograph>)
 4459	0x8FBA	辺 (<CJK Ideograph>)
 4460	0x224B0	𢒰 (<CJK Ideograph Extension B>)
 4461	0x8FB9	边 (<CJK Ideograph>)
 4462	0x24A93	𤪓 (<CJK Ideograph Extension B>)
 4463	0x4509	䔉 (<CJK Ideograph Extension A>)
 4464	0x7E7F	繿 (<CJK Ideograph>)
 4465	0x6F56	潖 (<CJK Ideograph>)
 4466	0x6AB1	檱 (<CJK Ideograph>)
 4467	0x4EEA	仪 (<CJK Ideograph>)
 4468	0x34E4	㓤 (<CJK Ideograph Extension A>)
 4469	0x28B2C	𨬬 (<CJK Ideograph Extension B>)
 4470	0x2789D	𧢝 (<CJK Ideograph Extension B>)
 4471	0x373A	㜺 (<CJK Ideograph Extension A>)
 4472	0x8E80	躀 (<CJK Ideograph>)
 4473	0x217F5	𡟵 (<CJK Ideograph Extension B>)
 4474	0x28024	𨀤 (<CJK Ideograph Extension B>)
 4475	0x28B6C	𨭬 (<CJK Ideograph Extension B>)
 4476	0x28B99	𨮙 (<CJK Ideograph Extension B>)
 4477	0x27A3E	𧨾 (<CJK Ideograph Extension B>)
 4478	0x266AF	𦚯 (<CJK Ideograph Extension B>)
 4479	0x3DEB	㷫 (<CJK Ideograph Extension A>)
 4480	0x27655	𧙕 (<CJK Ideograph Extension B>)
 4481	0x23CB7	𣲷 (<CJK Ideograph Extension B>)
 4482	0x25635	𥘵 (<CJK Ideograph Extension B>)
 4483	0x25956	𥥖 (<CJK Ideograph Extension B>)
 4484	0x4E9A	亚 (<CJK Ideograph>)
 4485	0x25E81	𥺁 (<CJK Ideograph Extension B>)
 4486	0x26258	𦉘 (<CJK Ideograph Extension B>)
 4487	0x56BF	嚿 (<CJK Ideograph>)
 4488	0x20E6D	𠹭 (<CJK Ideograph Extension B>)
 4489	0x8E0E	踎 (<CJK Ideograph>)
 4490	0x5B6D	孭 (<CJK Ideograph>)
 4491	0x23E88	𣺈 (<CJK Ideograph Extension B>)
 4492	0x24C9E	𤲞 (<CJK Ideograph Extension B>)
 4493	0x63DE	揞 (<CJK Ideograph>)
 4494	0x62D0	拐 (<CJK Ideograph>)
 4495	0x217F6	𡟶 (<CJK Ideograph Extension B>)
 4496	0x2187B	𡡻 (<CJK Ideograph Extension B>)
 4497	0x6530	攰 (<CJK Ideograph>)
 4498	0x562D	嘭 (<CJK Ideograph>)
 4499	0x25C4A	𥱊 (<CJK Ideograph Extension B>)
 4500	0x541A	吚 (<CJK Ideograph>)
 4501	0x25311	𥌑 (<CJK Ideograph Extension B>)
 4502	0x3DC6	㷆 (<CJK Ideograph Extension A>)
 4503	0x29D98	𩶘 (<CJK Ideograph Extension B>)
 4504	0x4C7D	䱽 (<CJK Ideograph Extension A>)
 4505	0x5622	嘢 (<CJK Ideograph>)
 4506	0x561E	嘞 (<CJK Ideograph>)
 4507	0x7F49	罉 (<CJK Ideograph>)
 4508	0x25ED8	𥻘 (<CJK Ideograph Extension B>)
 4509	0x5975	奵 (<CJK Ideograph>)
 4510	0x23D40	𣵀 (<CJK Ideograph Extension B>)
 4511	0x8770	蝰 (<CJK Ideograph>)
 4512	0x4E1C	东 (<CJK Ideograph>)
 4513	0x20FEA	𠿪 (<CJK Ideograph Extension B>)
 4514	0x20D49	𠵉 (<CJK Ideograph Extension B>)
 4515	0x236BA	𣚺 (<CJK Ideograph Extension B>)
 4516	0x8117	脗 (<CJK Ideograph>)
 4517	0x9D5E	鵞 (<CJK Ideograph>)
 4518	0x8D18	贘 (<CJK Ideograph>)
 4519	0x763B	瘻 (<CJK Ideograph>)
 4520	0x9C45	鱅 (<CJK Ideograph>)
 4521	0x764E	癎 (<CJK Ideograph>)
 4522	0x77B9	瞹 (<CJK Ideograph>)
 4523	0x9345	鍅 (<CJK Ideograph>)
 4524	0x5432	吲 (<CJK Ideograph>)
 4525	0x8148	腈 (<CJK Ideograph>)
 4526	0x82F7	苷 (<CJK Ideograph>)
 4527	0x5625	嘥 (<CJK Ideograph>)
 4528	0x8132	脲 (<CJK Ideograph>)
 4529	0x8418	萘 (<CJK Ideograph>)
 4530	0x80BD	肽 (<CJK Ideograph>)
 4531	0x55EA	嗪 (<CJK Ideograph>)
 4532	0x7962	祢 (<CJK Ideograph>)
 4533	0x5643	噃 (<CJK Ideograph>)
 4534	0x5416	吖 (<CJK Ideograph>)
 4535	0x20E9D	𠺝 (<CJK Ideograph Extension B>)
 4536	0x35CE	㗎 (<CJK Ideograph Extension A>)
 4537	0x5605	嘅 (<CJK Ideograph>)
 4538	0x55F1	嗱 (<CJK Ideograph>)
 4539	0x66F1	曱 (<CJK Ideograph>)
 4540	0x282E2	𨋢 (<CJK Ideograph Extension B>)
 4541	0x362D	㘭 (<CJK Ideograph Extension A>)
 4542	0x7534	甴 (<CJK Ideograph>)
 4543	0x55F0	嗰 (<CJK Ideograph>)
 4544	0x55BA	喺 (<CJK Ideograph>)
 4545	0x5497	咗 (<CJK Ideograph>)
 4546	0x5572	啲 (<CJK Ideograph>)
 4547	0x20C41	𠱁 (<CJK Ideograph Extension B>)
 4548	0x20C96	𠲖 (<CJK Ideograph Extension B>)
 4549	0x5ED0	廐 (<CJK Ideograph>)
 4550	0x25148	𥅈 (<CJK Ideograph Extension B>)
 4551	0x20E76	𠹶 (<CJK Ideograph Extension B>)
 4552	0x22C62	𢱢 (<CJK Ideograph Extension B>)
"#

/-- encoding_tables/whatwg/index-big5.txt:3462-3615 -/
noncomputable def index29 : List Text := lines! r#" 4553	0x20EA2	𠺢 (<CJK Ideograph Extension B>)
 4554	0x9EAB	麫 (<CJK Ideograph>)
 4555	0x7D5A	絚 (<CJK Ideograph>)
 4556	0x55DE	嗞 (<CJK Ideograph>)
 4557	0x21075	𡁵 (<CJK Ideograph Extension B>)
 4558	0x629D	抝 (<CJK Ideograph>)
 4559	0x976D	靭 (<CJK Ideograph>)
 4560	0x5494	咔 (<CJK Ideograph>)
 4561	0x8CCD	賍 (<CJK Ideograph>)
 4562	0x71F6	燶 (<CJK Ideograph>)
 4563	0x9176	酶 (<CJK Ideograph>)
 4564	0x63FC	揼 (<CJK Ideograph>)
 4565	0x63B9	掹 (<CJK Ideograph>)
 4566	0x63FE	揾 (<CJK Ideograph>)
 4567	0x5569	啩 (<CJK Ideograph>)
 4568	0x22B43	𢭃 (<CJK Ideograph Extension B>)
 4569	0x9C72	鱲 (<CJK Ideograph>)
 4570	0x22EB3	𢺳 (<CJK Ideograph Extension B>)
 4571	0x519A	冚 (<CJK Ideograph>)
 4572	0x34DF	㓟 (<CJK Ideograph Extension A>)
 4573	0x20DA7	𠶧 (<CJK Ideograph Extension B>)
 4574	0x51A7	冧 (<CJK Ideograph>)
 4575	0x544D	呍 (<CJK Ideograph>)
 4576	0x551E	唞 (<CJK Ideograph>)
 4577	0x5513	唓 (<CJK Ideograph>)
 4578	0x7666	癦 (<CJK Ideograph>)
 4579	0x8E2D	踭 (<CJK Ideograph>)
 4580	0x2688A	𦢊 (<CJK Ideograph Extension B>)
 4581	0x75B1	疱 (<CJK Ideograph>)
 4582	0x80B6	肶 (<CJK Ideograph>)
 4583	0x8804	蠄 (<CJK Ideograph>)
 4584	0x8786	螆 (<CJK Ideograph>)
 4585	0x88C7	裇 (<CJK Ideograph>)
 4586	0x81B6	膶 (<CJK Ideograph>)
 4587	0x841C	萜 (<CJK Ideograph>)
 4588	0x210C1	𡃁 (<CJK Ideograph Extension B>)
 4589	0x44EC	䓬 (<CJK Ideograph Extension A>)
 4590	0x7304	猄 (<CJK Ideograph>)
 4591	0x24706	𤜆 (<CJK Ideograph Extension B>)
 4592	0x5B90	宐 (<CJK Ideograph>)
 4593	0x830B	茋 (<CJK Ideograph>)
 4594	0x26893	𦢓 (<CJK Ideograph Extension B>)
 4595	0x567B	噻 (<CJK Ideograph>)
 4596	0x226F4	𢛴 (<CJK Ideograph Extension B>)
 4597	0x27D2F	𧴯 (<CJK Ideograph Extension B>)
 4598	0x241A3	𤆣 (<CJK Ideograph Extension B>)
 4599	0x27D73	𧵳 (<CJK Ideograph Extension B>)
 4600	0x26ED0	𦻐 (<CJK Ideograph Extension B>)
 4601	0x272B6	𧊶 (<CJK Ideograph Extension B>)
 4602	0x9170	酰 (<CJK Ideograph>)
 4603	0x211D9	𡇙 (<CJK Ideograph Extension B>)
 4604	0x9208	鈈 (<CJK Ideograph>)
 4605	0x23CFC	𣳼 (<CJK Ideograph Extension B>)
 4606	0x2A6A9	𪚩 (<CJK Ideograph Extension B>)
 4607	0x20EAC	𠺬 (<CJK Ideograph Extension B>)
 4608	0x20EF9	𠻹 (<CJK Ideograph Extension B>)
 4609	0x7266	牦 (<CJK Ideograph>)
 4610	0x21CA2	𡲢 (<CJK Ideograph Extension B>)
 4611	0x474E	䝎 (<CJK Ideograph Extension A>)
 4612	0x24FC2	𤿂 (<CJK Ideograph Extension B>)
 4613	0x27FF9	𧿹 (<CJK Ideograph Extension B>)
 4614	0x20FEB	𠿫 (<CJK Ideograph Extension B>)
 4615	0x40FA	䃺 (<CJK Ideograph Extension A>)
 4616	0x9C5D	鱝 (<CJK Ideograph>)
 4617	0x651F	攟 (<CJK Ideograph>)
 4618	0x22DA0	𢶠 (<CJK Ideograph Extension B>)
 4619	0x48F3	䣳 (<CJK Ideograph Extension A>)
 4620	0x247E0	𤟠 (<CJK Ideograph Extension B>)
 4621	0x29D7C	𩵼 (<CJK Ideograph Extension B>)
 4622	0x20FEC	𠿬 (<CJK Ideograph Extension B>)
 4623	0x20E0A	𠸊 (<CJK Ideograph Extension B>)
 4624	0x6062	恢 (<CJK Ideograph>)
 4625	0x275A3	𧖣 (<CJK Ideograph Extension B>)
 4626	0x20FED	𠿭 (<CJK Ideograph Extension B>)
 4628	0x26048	𦁈 (<CJK Ideograph Extension B>)
 4629	0x21187	𡆇 (<CJK Ideograph Extension B>)
 4630	0x71A3	熣 (<CJK Ideograph>)
 4631	0x7E8E	纎 (<CJK Ideograph>)
 4632	0x9D50	鵐 (<CJK Ideograph>)
 4633	0x4E1A	业 (<CJK Ideograph>)
 4634	0x4E04	丄 (<CJK Ideograph>)
 4635	0x3577	㕷 (<CJK Ideograph Extension A>)
 4636	0x5B0D	嬍 (<CJK Ideograph>)
 4637	0x6CB2	沲 (<CJK Ideograph>)
 4638	0x5367	卧 (<CJK Ideograph>)
 4639	0x36AC	㚬 (<CJK Ideograph Extension A>)
 4640	0x39DC	㧜 (<CJK Ideograph Extension A>)
 4641	0x537D	卽 (<CJK Ideograph>)
 4642	0x36A5	㚥 (<CJK Ideograph Extension A>)
 4643	0x24618	𤘘 (<CJK Ideograph Extension B>)
 4644	0x589A	墚 (<CJK Ideograph>)
 4645	0x24B6E	𤭮 (<CJK Ideograph Extension B>)
 4646	0x822D	舭 (<CJK Ideograph>)
 4647	0x544B	呋 (<CJK Ideograph>)
 4648	0x57AA	垪 (<CJK Ideograph>)
 4649	0x25A95	𥪕 (<CJK Ideograph Extension B>)
 4650	0x20979	𠥹 (<CJK Ideograph Extension B>)
 4652	0x3A52	㩒 (<CJK Ideograph Extension A>)
 4653	0x22465	𢑥 (<CJK Ideograph Extension B>)
 4654	0x7374	獴 (<CJK Ideograph>)
 4655	0x29EAC	𩺬 (<CJK Ideograph Extension B>)
 4656	0x4D09	䴉 (<CJK Ideograph Extension A>)
 4657	0x9BED	鯭 (<CJK Ideograph>)
 4658	0x23CFE	𣳾 (<CJK Ideograph Extension B>)
 4659	0x29F30	𩼰 (<CJK Ideograph Extension B>)
 4660	0x4C5B	䱛 (<CJK Ideograph Extension A>)
 4661	0x24FA9	𤾩 (<CJK Ideograph Extension B>)
 4662	0x2959E	𩖞 (<CJK Ideograph Extension B>)
 4663	0x29FDE	𩿞 (<CJK Ideograph Extension B>)
 4664	0x845C	葜 (<CJK Ideograph>)
 4665	0x23DB6	𣶶 (<CJK Ideograph Extension B>)
 4666	0x272B2	𧊲 (<CJK Ideograph Extension B>)
 4667	0x267B3	𦞳 (<CJK Ideograph Extension B>)
 4668	0x23720	𣜠 (<CJK Ideograph Extension B>)
 4669	0x632E	挮 (<CJK Ideograph>)
 4670	0x7D25	紥 (<CJK Ideograph>)
 4671	0x23EF7	𣻷 (<CJK Ideograph Extension B>)
 4672	0x23E2C	𣸬 (<CJK Ideograph Extension B>)
 4673	0x3A2A	㨪 (<CJK Ideograph Extension A>)
 4674	0x9008	逈 (<CJK Ideograph>)
 4675	0x52CC	勌 (<CJK Ideograph>)
 4676	0x3E74	㹴 (<CJK Ideograph Extension A>)
 4677	0x367A	㙺 (<CJK Ideograph Extension A>)
 4678	0x45E9	䗩 (<CJK Ideograph Extension A>)
 4679	0x2048E	𠒎 (<CJK Ideograph Extension B>)
 4680	0x7640	癀 (<CJK Ideograph>)
 4681	0x5AF0	嫰 (<CJK Ideograph>)
 4682	0x20EB6	𠺶 (<CJK Ideograph Extension B>)
 4683	0x787A	硺 (<CJK Ideograph>)
 4684	0x27F2E	𧼮 (<CJK Ideograph Extension B>)
 4685	0x58A7	墧 (<CJK Ideograph>)
 4686	0x40BF	䂿 (<CJK Ideograph Extension A>)
 4687	0x567C	噼 (<CJK Ideograph>)
 4688	0x9B8B	鮋 (<CJK Ideograph>)
 4689	0x5D74	嵴 (<CJK Ideograph>)
 4690	0x7654	癔 (<CJK Ideograph>)
 4691	0x2A434	𪐴 (<CJK Ideograph Extension B>)
 4692	0x9E85	麅 (<CJK Ideograph>)
 4693	0x4CE1	䳡 (<CJK Ideograph Extension A>)
 4694	0x75F9	痹 (<CJK Ideograph>)
 4695	0x37FB	㟻 (<CJK Ideograph Extension A>)
 4696	0x6119	愙 (<CJK Ideograph>)
 4697	0x230DA	𣃚 (<CJK Ideograph Extension B>)
 4698	0x243F2	𤏲 (<CJK Ideograph Extension B>)
 4700	0x565D	噝 (<CJK Ideograph>)
 4701	0x212A9	𡊩 (<CJK Ideograph Extension B>)
 4702	0x57A7	垧 (<CJK Ideograph>)
 4703	0x24963	𤥣 (<CJK Ideograph Extension B>)
 4704	0x29E06	𩸆 (<CJK Ideograph Extension B>)
 4705	0x5234	刴 (<CJK Ideograph>)
 4706	0x270AE	𧂮 (<CJK Ideograph Extension B>)
 4707	0x35AD	㖭 (<CJK Ideograph Extension A>)
 4708	0x6C4A	汊 (<CJK Ideograph>)
 4709	0x9D7C	鵼 (<CJK Ideograph>)
"#

/-- encoding_tables/whatwg/index-big5.txt:3616-3763 -/
noncomputable def index30 : List Text := lines! r#" 4710	0x7C56	籖 (<CJK Ideograph>)
 4711	0x9B39	鬹 (<CJK Ideograph>)
 4712	0x57DE	埞 (<CJK Ideograph>)
 4713	0x2176C	𡝬 (<CJK Ideograph Extension B>)
 4714	0x5C53	屓 (<CJK Ideograph>)
 4715	0x64D3	擓 (<CJK Ideograph>)
 4716	0x294D0	𩓐 (<CJK Ideograph Extension B>)
 4717	0x26335	𦌵 (<CJK Ideograph Extension B>)
 4718	0x27164	𧅤 (<CJK Ideograph Extension B>)
 4719	0x86AD	蚭 (<CJK Ideograph>)
 4720	0x20D28	𠴨 (<CJK Ideograph Extension B>)
 4721	0x26D22	𦴢 (<CJK Ideograph Extension B>)
 4722	0x24AE2	𤫢 (<CJK Ideograph Extension B>)
 4723	0x20D71	𠵱 (<CJK Ideograph Extension B>)
 4725	0x51FE	凾 (<CJK Ideograph>)
 4726	0x21F0F	𡼏 (<CJK Ideograph Extension B>)
 4727	0x5D8E	嶎 (<CJK Ideograph>)
 4728	0x9703	霃 (<CJK Ideograph>)
 4729	0x21DD1	𡷑 (<CJK Ideograph Extension B>)
 4730	0x9E81	麁 (<CJK Ideograph>)
 4731	0x904C	遌 (<CJK Ideograph>)
 4732	0x7B1F	笟 (<CJK Ideograph>)
 4733	0x9B02	鬂 (<CJK Ideograph>)
 4734	0x5CD1	峑 (<CJK Ideograph>)
 4735	0x7BA3	箣 (<CJK Ideograph>)
 4736	0x6268	扨 (<CJK Ideograph>)
 4737	0x6335	挵 (<CJK Ideograph>)
 4738	0x9AFF	髿 (<CJK Ideograph>)
 4739	0x7BCF	篏 (<CJK Ideograph>)
 4740	0x9B2A	鬪 (<CJK Ideograph>)
 4741	0x7C7E	籾 (<CJK Ideograph>)
 4742	0x9B2E	鬮 (<CJK Ideograph>)
 4743	0x7C42	籂 (<CJK Ideograph>)
 4744	0x7C86	粆 (<CJK Ideograph>)
 4745	0x9C15	鰕 (<CJK Ideograph>)
 4746	0x7BFC	篼 (<CJK Ideograph>)
 4747	0x9B09	鬉 (<CJK Ideograph>)
 4748	0x9F17	鼗 (<CJK Ideograph>)
 4749	0x9C1B	鰛 (<CJK Ideograph>)
 4750	0x2493E	𤤾 (<CJK Ideograph Extension B>)
 4751	0x9F5A	齚 (<CJK Ideograph>)
 4752	0x5573	啳 (<CJK Ideograph>)
 4753	0x5BC3	寃 (<CJK Ideograph>)
 4754	0x4FFD	俽 (<CJK Ideograph>)
 4755	0x9E98	麘 (<CJK Ideograph>)
 4756	0x4FF2	俲 (<CJK Ideograph>)
 4757	0x5260	剠 (<CJK Ideograph>)
 4758	0x3E06	㸆 (<CJK Ideograph Extension A>)
 4759	0x52D1	勑 (<CJK Ideograph>)
 4760	0x5767	坧 (<CJK Ideograph>)
 4761	0x5056	偖 (<CJK Ideograph>)
 4762	0x59B7	妷 (<CJK Ideograph>)
 4763	0x5E12	帒 (<CJK Ideograph>)
 4764	0x97C8	韈 (<CJK Ideograph>)
 4765	0x9DAB	鶫 (<CJK Ideograph>)
 4766	0x8F5C	轜 (<CJK Ideograph>)
 4767	0x5469	呩 (<CJK Ideograph>)
 4768	0x97B4	鞴 (<CJK Ideograph>)
 4769	0x9940	饀 (<CJK Ideograph>)
 4770	0x97BA	鞺 (<CJK Ideograph>)
 4771	0x532C	匬 (<CJK Ideograph>)
 4772	0x6130	愰 (<CJK Ideograph>)
 4773	0x692C	椬 (<CJK Ideograph>)
 4774	0x53DA	叚 (<CJK Ideograph>)
 4775	0x9C0A	鰊 (<CJK Ideograph>)
 4776	0x9D02	鴂 (<CJK Ideograph>)
 4777	0x4C3B	䰻 (<CJK Ideograph Extension A>)
 4778	0x9641	陁 (<CJK Ideograph>)
 4779	0x6980	榀 (<CJK Ideograph>)
 4780	0x50A6	傦 (<CJK Ideograph>)
 4781	0x7546	畆 (<CJK Ideograph>)
 4782	0x2176D	𡝭 (<CJK Ideograph Extension B>)
 4783	0x99DA	駚 (<CJK Ideograph>)
 4784	0x5273	剳 (<CJK Ideograph>)
 4786	0x9159	酙 (<CJK Ideograph>)
 4787	0x9681	隁 (<CJK Ideograph>)
 4788	0x915C	酜 (<CJK Ideograph>)
 4790	0x9151	酑 (<CJK Ideograph>)
 4791	0x28E97	𨺗 (<CJK Ideograph Extension B>)
 4792	0x637F	捿 (<CJK Ideograph>)
 4793	0x26D23	𦴣 (<CJK Ideograph Extension B>)
 4794	0x6ACA	櫊 (<CJK Ideograph>)
 4795	0x5611	嘑 (<CJK Ideograph>)
 4796	0x918E	醎 (<CJK Ideograph>)
 4797	0x757A	畺 (<CJK Ideograph>)
 4798	0x6285	抅 (<CJK Ideograph>)
 4799	0x203FC	𠏼 (<CJK Ideograph Extension B>)
 4800	0x734F	獏 (<CJK Ideograph>)
 4801	0x7C70	籰 (<CJK Ideograph>)
 4802	0x25C21	𥰡 (<CJK Ideograph Extension B>)
 4803	0x23CFD	𣳽 (<CJK Ideograph Extension B>)
 4805	0x24919	𤤙 (<CJK Ideograph Extension B>)
 4806	0x76D6	盖 (<CJK Ideograph>)
 4807	0x9B9D	鮝 (<CJK Ideograph>)
 4808	0x4E2A	个 (<CJK Ideograph>)
 4809	0x20CD4	𠳔 (<CJK Ideograph Extension B>)
 4810	0x83BE	莾 (<CJK Ideograph>)
 4811	0x8842	衂 (<CJK Ideograph>)
 4813	0x5C4A	届 (<CJK Ideograph>)
 4814	0x69C0	槀 (<CJK Ideograph>)
 4815	0x50ED	僭 (<CJK Ideograph>)
 4816	0x577A	坺 (<CJK Ideograph>)
 4817	0x521F	刟 (<CJK Ideograph>)
 4818	0x5DF5	巵 (<CJK Ideograph>)
 4819	0x4ECE	从 (<CJK Ideograph>)
 4820	0x6C31	氱 (<CJK Ideograph>)
 4821	0x201F2	𠇲 (<CJK Ideograph Extension B>)
 4822	0x4F39	伹 (<CJK Ideograph>)
 4823	0x549C	咜 (<CJK Ideograph>)
 4824	0x54DA	哚 (<CJK Ideograph>)
 4825	0x529A	劚 (<CJK Ideograph>)
 4826	0x8D82	趂 (<CJK Ideograph>)
 4827	0x35FE	㗾 (<CJK Ideograph Extension A>)
 4828	0x5F0C	弌 (<CJK Ideograph>)
 4829	0x35F3	㗳 (<CJK Ideograph Extension A>)
 4831	0x6B52	歒 (<CJK Ideograph>)
 4832	0x917C	酼 (<CJK Ideograph>)
 4833	0x9FA5	龥 (<CJK Ideograph>)
 4834	0x9B97	鮗 (<CJK Ideograph>)
 4835	0x982E	頮 (<CJK Ideograph>)
 4836	0x98B4	颴 (<CJK Ideograph>)
 4837	0x9ABA	骺 (<CJK Ideograph>)
 4838	0x9EA8	麨 (<CJK Ideograph>)
 4839	0x9E84	麄 (<CJK Ideograph>)
 4840	0x717A	煺 (<CJK Ideograph>)
 4841	0x7B14	笔 (<CJK Ideograph>)
 4843	0x6BFA	毺 (<CJK Ideograph>)
 4844	0x8818	蠘 (<CJK Ideograph>)
 4845	0x7F78	罸 (<CJK Ideograph>)
 4847	0x5620	嘠 (<CJK Ideograph>)
 4848	0x2A64A	𪙊 (<CJK Ideograph Extension B>)
 4849	0x8E77	蹷 (<CJK Ideograph>)
 4850	0x9F53	齓 (<CJK Ideograph>)
 4852	0x8DD4	跔 (<CJK Ideograph>)
 4853	0x8E4F	蹏 (<CJK Ideograph>)
 4854	0x9E1C	鸜 (<CJK Ideograph>)
 4855	0x8E01	踁 (<CJK Ideograph>)
 4856	0x6282	抂 (<CJK Ideograph>)
 4857	0x2837D	𨍽 (<CJK Ideograph Extension B>)
 4858	0x8E28	踨 (<CJK Ideograph>)
 4859	0x8E75	蹵 (<CJK Ideograph>)
 4860	0x7AD3	竓 (<CJK Ideograph>)
 4861	0x24A77	𤩷 (<CJK Ideograph Extension B>)
 4862	0x7A3E	稾 (<CJK Ideograph>)
 4863	0x78D8	磘 (<CJK Ideograph>)
 4864	0x6CEA	泪 (<CJK Ideograph>)
 4865	0x8A67	詧 (<CJK Ideograph>)
 4866	0x7607	瘇 (<CJK Ideograph>)
"#

/-- encoding_tables/whatwg/index-big5.txt:3764-3910 -/
noncomputable def index31 : List Text := lines! r#" 4867	0x28A5A	𨩚 (<CJK Ideograph Extension B>)
 4868	0x9F26	鼦 (<CJK Ideograph>)
 4869	0x6CCE	泎 (<CJK Ideograph>)
 4870	0x87D6	蟖 (<CJK Ideograph>)
 4871	0x75C3	痃 (<CJK Ideograph>)
 4872	0x2A2B2	𪊲 (<CJK Ideograph Extension B>)
 4873	0x7853	硓 (<CJK Ideograph>)
 4874	0x2F840	咢 (CJK COMPATIBILITY IDEOGRAPH-2F840)
 4875	0x8D0C	贌 (<CJK Ideograph>)
 4876	0x72E2	狢 (<CJK Ideograph>)
 4877	0x7371	獱 (<CJK Ideograph>)
 4878	0x8B2D	謭 (<CJK Ideograph>)
 4879	0x7302	猂 (<CJK Ideograph>)
 4880	0x74F1	瓱 (<CJK Ideograph>)
 4881	0x8CEB	賫 (<CJK Ideograph>)
 4882	0x24ABB	𤪻 (<CJK Ideograph Extension B>)
 4883	0x862F	蘯 (<CJK Ideograph>)
 4884	0x5FBA	徺 (<CJK Ideograph>)
 4885	0x88A0	袠 (<CJK Ideograph>)
 4886	0x44B7	䒷 (<CJK Ideograph Extension A>)
 4888	0x2183B	𡠻 (<CJK Ideograph Extension B>)
 4889	0x26E05	𦸅 (<CJK Ideograph Extension B>)
 4891	0x8A7E	詾 (<CJK Ideograph>)
 4892	0x2251B	𢔛 (<CJK Ideograph Extension B>)
 4894	0x60FD	惽 (<CJK Ideograph>)
 4895	0x7667	癧 (<CJK Ideograph>)
 4896	0x9AD7	髗 (<CJK Ideograph>)
 4897	0x9D44	鵄 (<CJK Ideograph>)
 4898	0x936E	鍮 (<CJK Ideograph>)
 4899	0x9B8F	鮏 (<CJK Ideograph>)
 4900	0x87F5	蟵 (<CJK Ideograph>)
 4902	0x880F	蠏 (<CJK Ideograph>)
 4903	0x8CF7	賷 (<CJK Ideograph>)
 4904	0x732C	猬 (<CJK Ideograph>)
 4905	0x9721	霡 (<CJK Ideograph>)
 4906	0x9BB0	鮰 (<CJK Ideograph>)
 4907	0x35D6	㗖 (<CJK Ideograph Extension A>)
 4908	0x72B2	犲 (<CJK Ideograph>)
 4909	0x4C07	䰇 (<CJK Ideograph Extension A>)
 4910	0x7C51	籑 (<CJK Ideograph>)
 4911	0x994A	饊 (<CJK Ideograph>)
 4912	0x26159	𦅙 (<CJK Ideograph Extension B>)
 4913	0x6159	慙 (<CJK Ideograph>)
 4914	0x4C04	䰄 (<CJK Ideograph Extension A>)
 4915	0x9E96	麖 (<CJK Ideograph>)
 4916	0x617D	慽 (<CJK Ideograph>)
 4918	0x575F	坟 (<CJK Ideograph>)
 4919	0x616F	慯 (<CJK Ideograph>)
 4920	0x62A6	抦 (<CJK Ideograph>)
 4921	0x6239	戹 (<CJK Ideograph>)
 4922	0x62CE	拎 (<CJK Ideograph>)
 4923	0x3A5C	㩜 (<CJK Ideograph Extension A>)
 4924	0x61E2	懢 (<CJK Ideograph>)
 4925	0x53AA	厪 (<CJK Ideograph>)
 4926	0x233F5	𣏵 (<CJK Ideograph Extension B>)
 4927	0x6364	捤 (<CJK Ideograph>)
 4928	0x6802	栂 (<CJK Ideograph>)
 4929	0x35D2	㗒 (<CJK Ideograph Extension A>)
 4930	0x5D57	嵗 (<CJK Ideograph>)
 4931	0x28BC2	𨯂 (<CJK Ideograph Extension B>)
 4932	0x8FDA	迚 (<CJK Ideograph>)
 4933	0x28E39	𨸹 (<CJK Ideograph Extension B>)
 4935	0x50D9	僙 (<CJK Ideograph>)
 4936	0x21D46	𡵆 (<CJK Ideograph Extension B>)
 4937	0x7906	礆 (<CJK Ideograph>)
 4938	0x5332	匲 (<CJK Ideograph>)
 4939	0x9638	阸 (<CJK Ideograph>)
 4940	0x20F3B	𠼻 (<CJK Ideograph Extension B>)
 4941	0x4065	䁥 (<CJK Ideograph Extension A>)
 4943	0x77FE	矾 (<CJK Ideograph>)
 4945	0x7CC2	糂 (<CJK Ideograph>)
 4946	0x25F1A	𥼚 (<CJK Ideograph Extension B>)
 4947	0x7CDA	糚 (<CJK Ideograph>)
 4948	0x7A2D	稭 (<CJK Ideograph>)
 4949	0x8066	聦 (<CJK Ideograph>)
 4950	0x8063	聣 (<CJK Ideograph>)
 4951	0x7D4D	絍 (<CJK Ideograph>)
 4952	0x7505	甅 (<CJK Ideograph>)
 4953	0x74F2	瓲 (<CJK Ideograph>)
 4954	0x8994	覔 (<CJK Ideograph>)
 4955	0x821A	舚 (<CJK Ideograph>)
 4956	0x670C	朌 (<CJK Ideograph>)
 4957	0x8062	聢 (<CJK Ideograph>)
 4958	0x27486	𧒆 (<CJK Ideograph Extension B>)
 4959	0x805B	聛 (<CJK Ideograph>)
 4960	0x74F0	瓰 (<CJK Ideograph>)
 4961	0x8103	脃 (<CJK Ideograph>)
 4962	0x7724	眤 (<CJK Ideograph>)
 4963	0x8989	覉 (<CJK Ideograph>)
 4964	0x267CC	𦟌 (<CJK Ideograph Extension B>)
 4965	0x7553	畓 (<CJK Ideograph>)
 4966	0x26ED1	𦻑 (<CJK Ideograph Extension B>)
 4967	0x87A9	螩 (<CJK Ideograph>)
 4968	0x87CE	蟎 (<CJK Ideograph>)
 4969	0x81C8	臈 (<CJK Ideograph>)
 4970	0x878C	螌 (<CJK Ideograph>)
 4971	0x8A49	詉 (<CJK Ideograph>)
 4972	0x8CAD	貭 (<CJK Ideograph>)
 4973	0x8B43	譃 (<CJK Ideograph>)
 4974	0x772B	眫 (<CJK Ideograph>)
 4975	0x74F8	瓸 (<CJK Ideograph>)
 4976	0x84DA	蓚 (<CJK Ideograph>)
 4977	0x3635	㘵 (<CJK Ideograph Extension A>)
 4978	0x69B2	榲 (<CJK Ideograph>)
 4979	0x8DA6	趦 (<CJK Ideograph>)
 4981	0x89A9	覩 (<CJK Ideograph>)
 4982	0x7468	瑨 (<CJK Ideograph>)
 4983	0x6DB9	涹 (<CJK Ideograph>)
 4984	0x87C1	蟁 (<CJK Ideograph>)
 4985	0x24011	𤀑 (<CJK Ideograph Extension B>)
 4986	0x74E7	瓧 (<CJK Ideograph>)
 4987	0x3DDB	㷛 (<CJK Ideograph Extension A>)
 4988	0x7176	煶 (<CJK Ideograph>)
 4989	0x60A4	悤 (<CJK Ideograph>)
 4990	0x619C	憜 (<CJK Ideograph>)
 4991	0x3CD1	㳑 (<CJK Ideograph Extension A>)
 4992	0x7162	煢 (<CJK Ideograph>)
 4993	0x6077	恷 (<CJK Ideograph>)
 4995	0x7F71	罱 (<CJK Ideograph>)
 4996	0x28B2D	𨬭 (<CJK Ideograph Extension B>)
 4997	0x7250	牐 (<CJK Ideograph>)
 4998	0x60E9	惩 (<CJK Ideograph>)
 4999	0x4B7E	䭾 (<CJK Ideograph Extension A>)
 5000	0x5220	删 (<CJK Ideograph>)
 5001	0x3C18	㰘 (<CJK Ideograph Extension A>)
 5002	0x23CC7	𣳇 (<CJK Ideograph Extension B>)
 5003	0x25ED7	𥻗 (<CJK Ideograph Extension B>)
 5004	0x27656	𧙖 (<CJK Ideograph Extension B>)
 5005	0x25531	𥔱 (<CJK Ideograph Extension B>)
 5006	0x21944	𡥄 (<CJK Ideograph Extension B>)
 5007	0x212FE	𡋾 (<CJK Ideograph Extension B>)
 5008	0x29903	𩤃 (<CJK Ideograph Extension B>)
 5009	0x26DDC	𦷜 (<CJK Ideograph Extension B>)
 5010	0x270AD	𧂭 (<CJK Ideograph Extension B>)
 5011	0x5CC1	峁 (<CJK Ideograph>)
 5012	0x261AD	𦆭 (<CJK Ideograph Extension B>)
 5013	0x28A0F	𨨏 (<CJK Ideograph Extension B>)
 5014	0x23677	𣙷 (<CJK Ideograph Extension B>)
 5015	0x200EE	𠃮 (<CJK Ideograph Extension B>)
 5016	0x26846	𦡆 (<CJK Ideograph Extension B>)
 5017	0x24F0E	𤼎 (<CJK Ideograph Extension B>)
 5018	0x4562	䕢 (<CJK Ideograph Extension A>)
 5019	0x5B1F	嬟 (<CJK Ideograph>)
 5020	0x2634C	𦍌 (<CJK Ideograph Extension B>)
 5021	0x9F50	齐 (<CJK Ideograph>)
 5022	0x9EA6	麦 (<CJK Ideograph>)
 5023	0x2626B	𦉫 (<CJK Ideograph Extension B>)
"#

/-- encoding_tables/whatwg/index-big5.txt:3911-4067 -/
noncomputable def index32 : List Text := lines! r#" 5024	0x3000	　 (IDEOGRAPHIC SPACE)
 5025	0xFF0C	， (FULLWIDTH COMMA)
 5026	0x3001	、 (IDEOGRAPHIC COMMA)
 5027	0x3002	。 (IDEOGRAPHIC FULL STOP)
 5028	0xFF0E	． (FULLWIDTH FULL STOP)
 5029	0x2027	‧ (HYPHENATION POINT)
 5030	0xFF1B	； (FULLWIDTH SEMICOLON)
 5031	0xFF1A	： (FULLWIDTH COLON)
 5032	0xFF1F	？ (FULLWIDTH QUESTION MARK)
 5033	0xFF01	！ (FULLWIDTH EXCLAMATION MARK)
 5034	0xFE30	︰ (PRESENTATION FORM FOR VERTICAL TWO DOT LEADER)
 5035	0x2026	… (HORIZONTAL ELLIPSIS)
 5036	0x2025	‥ (TWO DOT LEADER)
 5037	0xFE50	﹐ (SMALL COMMA)
 5038	0xFE51	﹑ (SMALL IDEOGRAPHIC COMMA)
 5039	0xFE52	﹒ (SMALL FULL STOP)
 5040	0x00B7	· (MIDDLE DOT)
 5041	0xFE54	﹔ (SMALL SEMICOLON)
 5042	0xFE55	﹕ (SMALL COLON)
 5043	0xFE56	﹖ (SMALL QUESTION MARK)
 5044	0xFE57	﹗ (SMALL EXCLAMATION MARK)
 5045	0xFF5C	｜ (FULLWIDTH VERTICAL LINE)
 5046	0x2013	– (EN DASH)
 5047	0xFE31	︱ (PRESENTATION FORM FOR VERTICAL EM DASH)
 5048	0x2014	— (EM DASH)
 5049	0xFE33	︳ (PRESENTATION FORM FOR VERTICAL LOW LINE)
 5050	0x2574	╴ (BOX DRAWINGS LIGHT LEFT)
 5051	0xFE34	︴ (PRESENTATION FORM FOR VERTICAL WAVY LOW LINE)
 5052	0xFE4F	﹏ (WAVY LOW LINE)
 5053	0xFF08	（ (FULLWIDTH LEFT PARENTHESIS)
 5054	0xFF09	） (FULLWIDTH RIGHT PARENTHESIS)
 5055	0xFE35	︵ (PRESENTATION FORM FOR VERTICAL LEFT PARENTHESIS)
 5056	0xFE36	︶ (PRESENTATION FORM FOR VERTICAL RIGHT PARENTHESIS)
 5057	0xFF5B	｛ (FULLWIDTH LEFT CURLY BRACKET)
 5058	0xFF5D	｝ (FULLWIDTH RIGHT CURLY BRACKET)
 5059	0xFE37	︷ (PRESENTATION FORM FOR VERTICAL LEFT CURLY BRACKET)
 5060	0xFE38	︸ (PRESENTATION FORM FOR VERTICAL RIGHT CURLY BRACKET)
 5061	0x3014	〔 (LEFT TORTOISE SHELL BRACKET)
 5062	0x3015	〕 (RIGHT TORTOISE SHELL BRACKET)
 5063	0xFE39	︹ (PRESENTATION FORM FOR VERTICAL LEFT TORTOISE SHELL BRACKET)
 5064	0xFE3A	︺ (PRESENTATION FORM FOR VERTICAL RIGHT TORTOISE SHELL BRACKET)
 5065	0x3010	【 (LEFT BLACK LENTICULAR BRACKET)
 5066	0x3011	】 (RIGHT BLACK LENTICULAR BRACKET)
 5067	0xFE3B	︻ (PRESENTATION FORM FOR VERTICAL LEFT BLACK LENTICULAR BRACKET)
 5068	0xFE3C	︼ (PRESENTATION FORM FOR VERTICAL RIGHT BLACK LENTICULAR BRACKET)
 5069	0x300A	《 (LEFT DOUBLE ANGLE BRACKET)
 5070	0x300B	》 (RIGHT DOUBLE ANGLE BRACKET)
 5071	0xFE3D	︽ (PRESENTATION FORM FOR VERTICAL LEFT DOUBLE ANGLE BRACKET)
 5072	0xFE3E	︾ (PRESENTATION FORM FOR VERTICAL RIGHT DOUBLE ANGLE BRACKET)
 5073	0x3008	〈 (LEFT ANGLE BRACKET)
 5074	0x3009	〉 (RIGHT ANGLE BRACKET)
 5075	0xFE3F	︿ (PRESENTATION FORM FOR VERTICAL LEFT ANGLE BRACKET)
 5076	0xFE40	﹀ (PRESENTATION FORM FOR VERTICAL RIGHT ANGLE BRACKET)
 5077	0x300C	「 (LEFT CORNER BRACKET)
 5078	0x300D	」 (RIGHT CORNER BRACKET)
 5079	0xFE41	﹁ (PRESENTATION FORM FOR VERTICAL LEFT CORNER BRACKET)
 5080	0xFE42	﹂ (PRESENTATION FORM FOR VERTICAL RIGHT CORNER BRACKET)
 5081	0x300E	『 (LEFT WHITE CORNER BRACKET)
 5082	0x300F	』 (RIGHT WHITE CORNER BRACKET)
 5083	0xFE43	﹃ (PRESENTATION FORM FOR VERTICAL LEFT WHITE CORNER BRACKET)
 5084	0xFE44	﹄ (PRESENTATION FORM FOR VERTICAL RIGHT WHITE CORNER BRACKET)
 5085	0xFE59	﹙ (SMALL LEFT PARENTHESIS)
 5086	0xFE5A	﹚ (SMALL RIGHT PARENTHESIS)
 5087	0xFE5B	﹛ (SMALL LEFT CURLY BRACKET)
 5088	0xFE5C	﹜ (SMALL RIGHT CURLY BRACKET)
 5089	0xFE5D	﹝ (SMALL LEFT TORTOISE SHELL BRACKET)
 5090	0xFE5E	﹞ (SMALL RIGHT TORTOISE SHELL BRACKET)
 5091	0x2018	‘ (LEFT SINGLE QUOTATION MARK)
 5092	0x2019	’ (RIGHT SINGLE QUOTATION MARK)
 5093	0x201C	“ (LEFT DOUBLE QUOTATION MARK)
 5094	0x201D	” (RIGHT DOUBLE QUOTATION MARK)
 5095	0x301D	〝 (REVERSED DOUBLE PRIME QUOTATION MARK)
 5096	0x301E	〞 (DOUBLE PRIME QUOTATION MARK)
 5097	0x2035	‵ (REVERSED PRIME)
 5098	0x2032	′ (PRIME)
 5099	0xFF03	＃ (FULLWIDTH NUMBER SIGN)
 5100	0xFF06	＆ (FULLWIDTH AMPERSAND)
 5101	0xFF0A	＊ (FULLWIDTH ASTERISK)
 5102	0x203B	※ (REFERENCE MARK)
 5103	0x00A7	§ (SECTION SIGN)
 5104	0x3003	〃 (DITTO MARK)
 5105	0x25CB	○ (WHITE CIRCLE)
 5106	0x25CF	● (BLACK CIRCLE)
 5107	0x25B3	△ (WHITE UP-POINTING TRIANGLE)
 5108	0x25B2	▲ (BLACK UP-POINTING TRIANGLE)
 5109	0x25CE	◎ (BULLSEYE)
 5110	0x2606	☆ (WHITE STAR)
 5111	0x2605	★ (BLACK STAR)
 5112	0x25C7	◇ (WHITE DIAMOND)
 5113	0x25C6	◆ (BLACK DIAMOND)
 5114	0x25A1	□ (WHITE SQUARE)
 5115	0x25A0	■ (BLACK SQUARE)
 5116	0x25BD	▽ (WHITE DOWN-POINTING TRIANGLE)
 5117	0x25BC	▼ (BLACK DOWN-POINTING TRIANGLE)
 5118	0x32A3	㊣ (CIRCLED IDEOGRAPH CORRECT)
 5119	0x2105	℅ (CARE OF)
 5120	0x00AF	¯ (MACRON)
 5121	0xFFE3	￣ (FULLWIDTH MACRON)
 5122	0xFF3F	＿ (FULLWIDTH LOW LINE)
 5123	0x02CD	ˍ (MODIFIER LETTER LOW MACRON)
 5124	0xFE49	﹉ (DASHED OVERLINE)
 5125	0xFE4A	﹊ (CENTRELINE OVERLINE)
 5126	0xFE4D	﹍ (DASHED LOW LINE)
 5127	0xFE4E	﹎ (CENTRELINE LOW LINE)
 5128	0xFE4B	﹋ (WAVY OVERLINE)
 5129	0xFE4C	﹌ (DOUBLE WAVY OVERLINE)
 5130	0xFE5F	﹟ (SMALL NUMBER SIGN)
 5131	0xFE60	﹠ (SMALL AMPERSAND)
 5132	0xFE61	﹡ (SMALL ASTERISK)
 5133	0xFF0B	＋ (FULLWIDTH PLUS SIGN)
 5134	0xFF0D	－ (FULLWIDTH HYPHEN-MINUS)
 5135	0x00D7	× (MULTIPLICATION SIGN)
 5136	0x00F7	÷ (DIVISION SIGN)
 5137	0x00B1	± (PLUS-MINUS SIGN)
 5138	0x221A	√ (SQUARE ROOT)
 5139	0xFF1C	＜ (FULLWIDTH LESS-THAN SIGN)
 5140	0xFF1E	＞ (FULLWIDTH GREATER-THAN SIGN)
 5141	0xFF1D	＝ (FULLWIDTH EQUALS SIGN)
 5142	0x2266	≦ (LESS-THAN OVER EQUAL TO)
 5143	0x2267	≧ (GREATER-THAN OVER EQUAL TO)
 5144	0x2260	≠ (NOT EQUAL TO)
 5145	0x221E	∞ (INFINITY)
 5146	0x2252	≒ (APPROXIMATELY EQUAL TO OR THE IMAGE OF)
 5147	0x2261	≡ (IDENTICAL TO)
 5148	0xFE62	﹢ (SMALL PLUS SIGN)
 5149	0xFE63	﹣ (SMALL HYPHEN-MINUS)
 5150	0xFE64	﹤ (SMALL LESS-THAN SIGN)
 5151	0xFE65	﹥ (SMALL GREATER-THAN SIGN)
 5152	0xFE66	﹦ (SMALL EQUALS SIGN)
 5153	0xFF5E	～ (FULLWIDTH TILDE)
 5154	0x2229	∩ (INTERSECTION)
 5155	0x222A	∪ (UNION)
 5156	0x22A5	⊥ (UP TACK)
 5157	0x2220	∠ (ANGLE)
 5158	0x221F	∟ (RIGHT ANGLE)
 5159	0x22BF	⊿ (RIGHT TRIANGLE)
 5160	0x33D2	㏒ (SQUARE LOG)
 5161	0x33D1	㏑ (SQUARE LN)
 5162	0x222B	∫ (INTEGRAL)
 5163	0x222E	∮ (CONTOUR INTEGRAL)
 5164	0x2235	∵ (BECAUSE)
 5165	0x2234	∴ (THEREFORE)
 5166	0x2640	♀ (FEMALE SIGN)
 5167	0x2642	♂ (MALE SIGN)
 5168	0x2295	⊕ (CIRCLED PLUS)
 5169	0x2299	⊙ (CIRCLED DOT OPERATOR)
 5170	0x2191	↑ (UPWARDS ARROW)
 5171	0x2193	↓ (DOWNWARDS ARROW)
 5172	0x2190	← (LEFTWARDS ARROW)
 5173	0x2192	→ (RIGHTWARDS ARROW)
 5174	0x2196	↖ (NORTH WEST ARROW)
 5175	0x2197	↗ (NORTH EAST ARROW)
 5176	0x2199	↙ (SOUTH WEST ARROW)
 5177	0x2198	↘ (SOUTH EAST ARROW)
 5178	0x2225	∥ (PARALLEL TO)
 5179	0x2223	∣ (DIVIDES)
 5180	0xFF0F	／ (FULLWIDTH SOLIDUS)
"#

/-- encoding_tables/whatwg/index-big5.txt:4068-4224 -/
noncomputable def index33 : List Text := lines! r#" 5181	0xFF3C	＼ (FULLWIDTH REVERSE SOLIDUS)
 5182	0x2215	∕ (DIVISION SLASH)
 5183	0xFE68	﹨ (SMALL REVERSE SOLIDUS)
 5184	0xFF04	＄ (FULLWIDTH DOLLAR SIGN)
 5185	0xFFE5	￥ (FULLWIDTH YEN SIGN)
 5186	0x3012	〒 (POSTAL MARK)
 5187	0xFFE0	￠ (FULLWIDTH CENT SIGN)
 5188	0xFFE1	￡ (FULLWIDTH POUND SIGN)
 5189	0xFF05	％ (FULLWIDTH PERCENT SIGN)
 5190	0xFF20	＠ (FULLWIDTH COMMERCIAL AT)
 5191	0x2103	℃ (DEGREE CELSIUS)
 5192	0x2109	℉ (DEGREE FAHRENHEIT)
 5193	0xFE69	﹩ (SMALL DOLLAR SIGN)
 5194	0xFE6A	﹪ (SMALL PERCENT SIGN)
 5195	0xFE6B	﹫ (SMALL COMMERCIAL AT)
 5196	0x33D5	㏕ (SQUARE MIL)
 5197	0x339C	㎜ (SQUARE MM)
 5198	0x339D	㎝ (SQUARE CM)
 5199	0x339E	㎞ (SQUARE KM)
 5200	0x33CE	㏎ (SQUARE KM CAPITAL)
 5201	0x33A1	㎡ (SQUARE M SQUARED)
 5202	0x338E	㎎ (SQUARE MG)
 5203	0x338F	㎏ (SQUARE KG)
 5204	0x33C4	㏄ (SQUARE CC)
 5205	0x00B0	° (DEGREE SIGN)
 5206	0x5159	兙 (<CJK Ideograph>)
 5207	0x515B	兛 (<CJK Ideograph>)
 5208	0x515E	兞 (<CJK Ideograph>)
 5209	0x515D	兝 (<CJK Ideograph>)
 5210	0x5161	兡 (<CJK Ideograph>)
 5211	0x5163	兣 (<CJK Ideograph>)
 5212	0x55E7	嗧 (<CJK Ideograph>)
 5213	0x74E9	瓩 (<CJK Ideograph>)
 5214	0x7CCE	糎 (<CJK Ideograph>)
 5215	0x2581	▁ (LOWER ONE EIGHTH BLOCK)
 5216	0x2582	▂ (LOWER ONE QUARTER BLOCK)
 5217	0x2583	▃ (LOWER THREE EIGHTHS BLOCK)
 5218	0x2584	▄ (LOWER HALF BLOCK)
 5219	0x2585	▅ (LOWER FIVE EIGHTHS BLOCK)
 5220	0x2586	▆ (LOWER THREE QUARTERS BLOCK)
 5221	0x2587	▇ (LOWER SEVEN EIGHTHS BLOCK)
 5222	0x2588	█ (FULL BLOCK)
 5223	0x258F	▏ (LEFT ONE EIGHTH BLOCK)
 5224	0x258E	▎ (LEFT ONE QUARTER BLOCK)
 5225	0x258D	▍ (LEFT THREE EIGHTHS BLOCK)
 5226	0x258C	▌ (LEFT HALF BLOCK)
 5227	0x258B	▋ (LEFT FIVE EIGHTHS BLOCK)
 5228	0x258A	▊ (LEFT THREE QUARTERS BLOCK)
 5229	0x2589	▉ (LEFT SEVEN EIGHTHS BLOCK)
 5230	0x253C	┼ (BOX DRAWINGS LIGHT VERTICAL AND HORIZONTAL)
 5231	0x2534	┴ (BOX DRAWINGS LIGHT UP AND HORIZONTAL)
 5232	0x252C	┬ (BOX DRAWINGS LIGHT DOWN AND HORIZONTAL)
 5233	0x2524	┤ (BOX DRAWINGS LIGHT VERTICAL AND LEFT)
 5234	0x251C	├ (BOX DRAWINGS LIGHT VERTICAL AND RIGHT)
 5235	0x2594	▔ (UPPER ONE EIGHTH BLOCK)
 5236	0x2500	─ (BOX DRAWINGS LIGHT HORIZONTAL)
 5237	0x2502	│ (BOX DRAWINGS LIGHT VERTICAL)
 5238	0x2595	▕ (RIGHT ONE EIGHTH BLOCK)
 5239	0x250C	┌ (BOX DRAWINGS LIGHT DOWN AND RIGHT)
 5240	0x2510	┐ (BOX DRAWINGS LIGHT DOWN AND LEFT)
 5241	0x2514	└ (BOX DRAWINGS LIGHT UP AND RIGHT)
 5242	0x2518	┘ (BOX DRAWINGS LIGHT UP AND LEFT)
 5243	0x256D	╭ (BOX DRAWINGS LIGHT ARC DOWN AND RIGHT)
 5244	0x256E	╮ (BOX DRAWINGS LIGHT ARC DOWN AND LEFT)
 5245	0x2570	╰ (BOX DRAWINGS LIGHT ARC UP AND RIGHT)
 5246	0x256F	╯ (BOX DRAWINGS LIGHT ARC UP AND LEFT)
 5247	0x2550	═ (BOX DRAWINGS DOUBLE HORIZONTAL)
 5248	0x255E	╞ (BOX DRAWINGS VERTICAL SINGLE AND RIGHT DOUBLE)
 5249	0x256A	╪ (BOX DRAWINGS VERTICAL SINGLE AND HORIZONTAL DOUBLE)
 5250	0x2561	╡ (BOX DRAWINGS VERTICAL SINGLE AND LEFT DOUBLE)
 5251	0x25E2	◢ (BLACK LOWER RIGHT TRIANGLE)
 5252	0x25E3	◣ (BLACK LOWER LEFT TRIANGLE)
 5253	0x25E5	◥ (BLACK UPPER RIGHT TRIANGLE)
 5254	0x25E4	◤ (BLACK UPPER LEFT TRIANGLE)
 5255	0x2571	╱ (BOX DRAWINGS LIGHT DIAGONAL UPPER RIGHT TO LOWER LEFT)
 5256	0x2572	╲ (BOX DRAWINGS LIGHT DIAGONAL UPPER LEFT TO LOWER RIGHT)
 5257	0x2573	╳ (BOX DRAWINGS LIGHT DIAGONAL CROSS)
 5258	0xFF10	０ (FULLWIDTH DIGIT ZERO)
 5259	0xFF11	１ (FULLWIDTH DIGIT ONE)
 5260	0xFF12	２ (FULLWIDTH DIGIT TWO)
 5261	0xFF13	３ (FULLWIDTH DIGIT THREE)
 5262	0xFF14	４ (FULLWIDTH DIGIT FOUR)
 5263	0xFF15	５ (FULLWIDTH DIGIT FIVE)
 5264	0xFF16	６ (FULLWIDTH DIGIT SIX)
 5265	0xFF17	７ (FULLWIDTH DIGIT SEVEN)
 5266	0xFF18	８ (FULLWIDTH DIGIT EIGHT)
 5267	0xFF19	９ (FULLWIDTH DIGIT NINE)
 5268	0x2160	Ⅰ (ROMAN NUMERAL ONE)
 5269	0x2161	Ⅱ (ROMAN NUMERAL TWO)
 5270	0x2162	Ⅲ (ROMAN NUMERAL THREE)
 5271	0x2163	Ⅳ (ROMAN NUMERAL FOUR)
 5272	0x2164	Ⅴ (ROMAN NUMERAL FIVE)
 5273	0x2165	Ⅵ (ROMAN NUMERAL SIX)
 5274	0x2166	Ⅶ (ROMAN NUMERAL SEVEN)
 5275	0x2167	Ⅷ (ROMAN NUMERAL EIGHT)
 5276	0x2168	Ⅸ (ROMAN NUMERAL NINE)
 5277	0x2169	Ⅹ (ROMAN NUMERAL TEN)
 5278	0x3021	〡 (HANGZHOU NUMERAL ONE)
 5279	0x3022	〢 (HANGZHOU NUMERAL TWO)
 5280	0x3023	〣 (HANGZHOU NUMERAL THREE)
 5281	0x3024	〤 (HANGZHOU NUMERAL FOUR)
 5282	0x3025	〥 (HANGZHOU NUMERAL FIVE)
 5283	0x3026	〦 (HANGZHOU NUMERAL SIX)
 5284	0x3027	〧 (HANGZHOU NUMERAL SEVEN)
 5285	0x3028	〨 (HANGZHOU NUMERAL EIGHT)
 5286	0x3029	〩 (HANGZHOU NUMERAL NINE)
 5287	0x5341	十 (<CJK Ideograph>)
 5288	0x5344	卄 (<CJK Ideograph>)
 5289	0x5345	卅 (<CJK Ideograph>)
 5290	0xFF21	Ａ (FULLWIDTH LATIN CAPITAL LETTER A)
 5291	0xFF22	Ｂ (FULLWIDTH LATIN CAPITAL LETTER B)
 5292	0xFF23	Ｃ (FULLWIDTH LATIN CAPITAL LETTER C)
 5293	0xFF24	Ｄ (FULLWIDTH LATIN CAPITAL LETTER D)
 5294	0xFF25	Ｅ (FULLWIDTH LATIN CAPITAL LETTER E)
 5295	0xFF26	Ｆ (FULLWIDTH LATIN CAPITAL LETTER F)
 5296	0xFF27	Ｇ (FULLWIDTH LATIN CAPITAL LETTER G)
 5297	0xFF28	Ｈ (FULLWIDTH LATIN CAPITAL LETTER H)
 5298	0xFF29	Ｉ (FULLWIDTH LATIN CAPITAL LETTER I)
 5299	0xFF2A	Ｊ (FULLWIDTH LATIN CAPITAL LETTER J)
 5300	0xFF2B	Ｋ (FULLWIDTH LATIN CAPITAL LETTER K)
 5301	0xFF2C	Ｌ (FULLWIDTH LATIN CAPITAL LETTER L)
 5302	0xFF2D	Ｍ (FULLWIDTH LATIN CAPITAL LETTER M)
 5303	0xFF2E	Ｎ (FULLWIDTH LATIN CAPITAL LETTER N)
 5304	0xFF2F	Ｏ (FULLWIDTH LATIN CAPITAL LETTER O)
 5305	0xFF30	Ｐ (FULLWIDTH LATIN CAPITAL LETTER P)
 5306	0xFF31	Ｑ (FULLWIDTH LATIN CAPITAL LETTER Q)
 5307	0xFF32	Ｒ (FULLWIDTH LATIN CAPITAL LETTER R)
 5308	0xFF33	Ｓ (FULLWIDTH LATIN CAPITAL LETTER S)
 5309	0xFF34	Ｔ (FULLWIDTH LATIN CAPITAL LETTER T)
 5310	0xFF35	Ｕ (FULLWIDTH LATIN CAPITAL LETTER U)
 5311	0xFF36	Ｖ (FULLWIDTH LATIN CAPITAL LETTER V)
 5312	0xFF37	Ｗ (FULLWIDTH LATIN CAPITAL LETTER W)
 5313	0xFF38	Ｘ (FULLWIDTH LATIN CAPITAL LETTER X)
 5314	0xFF39	Ｙ (FULLWIDTH LATIN CAPITAL LETTER Y)
 5315	0xFF3A	Ｚ (FULLWIDTH LATIN CAPITAL LETTER Z)
 5316	0xFF41	ａ (FULLWIDTH LATIN SMALL LETTER A)
 5317	0xFF42	ｂ (FULLWIDTH LATIN SMALL LETTER B)
 5318	0xFF43	ｃ (FULLWIDTH LATIN SMALL LETTER C)
 5319	0xFF44	ｄ (FULLWIDTH LATIN SMALL LETTER D)
 5320	0xFF45	ｅ (FULLWIDTH LATIN SMALL LETTER E)
 5321	0xFF46	ｆ (FULLWIDTH LATIN SMALL LETTER F)
 5322	0xFF47	ｇ (FULLWIDTH LATIN SMALL LETTER G)
 5323	0xFF48	ｈ (FULLWIDTH LATIN SMALL LETTER H)
 5324	0xFF49	ｉ (FULLWIDTH LATIN SMALL LETTER I)
 5325	0xFF4A	ｊ (FULLWIDTH LATIN SMALL LETTER J)
 5326	0xFF4B	ｋ (FULLWIDTH LATIN SMALL LETTER K)
 5327	0xFF4C	ｌ (FULLWIDTH LATIN SMALL LETTER L)
 5328	0xFF4D	ｍ (FULLWIDTH LATIN SMALL LETTER M)
 5329	0xFF4E	ｎ (FULLWIDTH LATIN SMALL LETTER N)
 5330	0xFF4F	ｏ (FULLWIDTH LATIN SMALL LETTER O)
 5331	0xFF50	ｐ (FULLWIDTH LATIN SMALL LETTER P)
 5332	0xFF51	ｑ (FULLWIDTH LATIN SMALL LETTER Q)
 5333	0xFF52	ｒ (FULLWIDTH LATIN SMALL LETTER R)
 5334	0xFF53	ｓ (FULLWIDTH LATIN SMALL LETTER S)
 5335	0xFF54	ｔ (FULLWIDTH LATIN SMALL LETTER T)
 5336	0xFF55	ｕ (FULLWIDTH LATIN SMALL LETTER U)
 5337	0xFF56	ｖ (FULLWIDTH LATIN SMALL LETTER V)
"#

/-- encoding_tables/whatwg/index-big5.txt:4225-4352 -/
noncomputable def index34 : List Text := lines! r#" 5338	0xFF57	ｗ (FULLWIDTH LATIN SMALL LETTER W)
 5339	0xFF58	ｘ (FULLWIDTH LATIN SMALL LETTER X)
 5340	0xFF59	ｙ (FULLWIDTH LATIN SMALL LETTER Y)
 5341	0xFF5A	ｚ (FULLWIDTH LATIN SMALL LETTER Z)
 5342	0x0391	Α (GREEK CAPITAL LETTER ALPHA)
 5343	0x0392	Β (GREEK CAPITAL LETTER BETA)
 5344	0x0393	Γ (GREEK CAPITAL LETTER GAMMA)
 5345	0x0394	Δ (GREEK CAPITAL LETTER DELTA)
 5346	0x0395	Ε (GREEK CAPITAL LETTER EPSILON)
 5347	0x0396	Ζ (GREEK CAPITAL LETTER ZETA)
 5348	0x0397	Η (GREEK CAPITAL LETTER ETA)
 5349	0x0398	Θ (GREEK CAPITAL LETTER THETA)
 5350	0x0399	Ι (GREEK CAPITAL LETTER IOTA)
 5351	0x039A	Κ (GREEK CAPITAL LETTER KAPPA)
 5352	0x039B	Λ (GREEK CAPITAL LETTER LAMDA)
 5353	0x039C	Μ (GREEK CAPITAL LETTER MU)
 5354	0x039D	Ν (GREEK CAPITAL LETTER NU)
 5355	0x039E	Ξ (GREEK CAPITAL LETTER XI)
 5356	0x039F	Ο (GREEK CAPITAL LETTER OMICRON)
 5357	0x03A0	Π (GREEK CAPITAL LETTER PI)
 5358	0x03A1	Ρ (GREEK CAPITAL LETTER RHO)
 5359	0x03A3	Σ (GREEK CAPITAL LETTER SIGMA)
 5360	0x03A4	Τ (GREEK CAPITAL LETTER TAU)
 5361	0x03A5	Υ (GREEK CAPITAL LETTER UPSILON)
 5362	0x03A6	Φ (GREEK CAPITAL LETTER PHI)
 5363	0x03A7	Χ (GREEK CAPITAL LETTER CHI)
 5364	0x03A8	Ψ (GREEK CAPITAL LETTER PSI)
 5365	0x03A9	Ω (GREEK CAPITAL LETTER OMEGA)
 5366	0x03B1	α (GREEK SMALL LETTER ALPHA)
 5367	0x03B2	β (GREEK SMALL LETTER BETA)
 5368	0x03B3	γ (GREEK SMALL LETTER GAMMA)
 5369	0x03B4	δ (GREEK SMALL LETTER DELTA)
 5370	0x03B5	ε (GREEK SMALL LETTER EPSILON)
 5371	0x03B6	ζ (GREEK SMALL LETTER ZETA)
 5372	0x03B7	η (GREEK SMALL LETTER ETA)
 5373	0x03B8	θ (GREEK SMALL LETTER THETA)
 5374	0x03B9	ι (GREEK SMALL LETTER IOTA)
 5375	0x03BA	κ (GREEK SMALL LETTER KAPPA)
 5376	0x03BB	λ (GREEK SMALL LETTER LAMDA)
 5377	0x03BC	μ (GREEK SMALL LETTER MU)
 5378	0x03BD	ν (GREEK SMALL LETTER NU)
 5379	0x03BE	ξ (GREEK SMALL LETTER XI)
 5380	0x03BF	ο (GREEK SMALL LETTER OMICRON)
 5381	0x03C0	π (GREEK SMALL LETTER PI)
 5382	0x03C1	ρ (GREEK SMALL LETTER RHO)
 5383	0x03C3	σ (GREEK SMALL LETTER SIGMA)
 5384	0x03C4	τ (GREEK SMALL LETTER TAU)
 5385	0x03C5	υ (GREEK SMALL LETTER UPSILON)
 5386	0x03C6	φ (GREEK SMALL LETTER PHI)
 5387	0x03C7	χ (GREEK SMALL LETTER CHI)
 5388	0x03C8	ψ (GREEK SMALL LETTER PSI)
 5389	0x03C9	ω (GREEK SMALL LETTER OMEGA)
 5390	0x3105	ㄅ (BOPOMOFO LETTER B)
 5391	0x3106	ㄆ (BOPOMOFO LETTER P)
 5392	0x3107	ㄇ (BOPOMOFO LETTER M)
 5393	0x3108	ㄈ (BOPOMOFO LETTER F)
 5394	0x3109	ㄉ (BOPOMOFO LETTER D)
 5395	0x310A	ㄊ (BOPOMOFO LETTER T)
 5396	0x310B	ㄋ (BOPOMOFO LETTER N)
 5397	0x310C	ㄌ (BOPOMOFO LETTER L)
 5398	0x310D	ㄍ (BOPOMOFO LETTER G)
 5399	0x310E	ㄎ (BOPOMOFO LETTER K)
 5400	0x310F	ㄏ (BOPOMOFO LETTER H)
 5401	0x3110	ㄐ (BOPOMOFO LETTER J)
 5402	0x3111	ㄑ (BOPOMOFO LETTER Q)
 5403	0x3112	ㄒ (BOPOMOFO LETTER X)
 5404	0x3113	ㄓ (BOPOMOFO LETTER ZH)
 5405	0x3114	ㄔ (BOPOMOFO LETTER CH)
 5406	0x3115	ㄕ (BOPOMOFO LETTER SH)
 5407	0x3116	ㄖ (BOPOMOFO LETTER R)
 5408	0x3117	ㄗ (BOPOMOFO LETTER Z)
 5409	0x3118	ㄘ (BOPOMOFO LETTER C)
 5410	0x3119	ㄙ (BOPOMOFO LETTER S)
 5411	0x311A	ㄚ (BOPOMOFO LETTER A)
 5412	0x311B	ㄛ (BOPOMOFO LETTER O)
 5413	0x311C	ㄜ (BOPOMOFO LETTER E)
 5414	0x311D	ㄝ (BOPOMOFO LETTER EH)
 5415	0x311E	ㄞ (BOPOMOFO LETTER AI)
 5416	0x311F	ㄟ (BOPOMOFO LETTER EI)
 5417	0x3120	ㄠ (BOPOMOFO LETTER AU)
 5418	0x3121	ㄡ (BOPOMOFO LETTER OU)
 5419	0x3122	ㄢ (BOPOMOFO LETTER AN)
 5420	0x3123	ㄣ (BOPOMOFO LETTER EN)
 5421	0x3124	ㄤ (BOPOMOFO LETTER ANG)
 5422	0x3125	ㄥ (BOPOMOFO LETTER ENG)
 5423	0x3126	ㄦ (BOPOMOFO LETTER ER)
 5424	0x3127	ㄧ (BOPOMOFO LETTER I)
 5425	0x3128	ㄨ (BOPOMOFO LETTER U)
 5426	0x3129	ㄩ (BOPOMOFO LETTER IU)
 5427	0x02D9	˙ (DOT ABOVE)
 5428	0x02C9	ˉ (MODIFIER LETTER MACRON)
 5429	0x02CA	ˊ (MODIFIER LETTER ACUTE ACCENT)
 5430	0x02C7	ˇ (CARON)
 5431	0x02CB	ˋ (MODIFIER LETTER GRAVE ACCENT)
 5432	0x2400	␀ (SYMBOL FOR NULL)
 5433	0x2401	␁ (SYMBOL FOR START OF HEADING)
 5434	0x2402	␂ (SYMBOL FOR START OF TEXT)
 5435	0x2403	␃ (SYMBOL FOR END OF TEXT)
 5436	0x2404	␄ (SYMBOL FOR END OF TRANSMISSION)
 5437	0x2405	␅ (SYMBOL FOR ENQUIRY)
 5438	0x2406	␆ (SYMBOL FOR ACKNOWLEDGE)
 5439	0x2407	␇ (SYMBOL FOR BELL)
 5440	0x2408	␈ (SYMBOL FOR BACKSPACE)
 5441	0x2409	␉ (SYMBOL FOR HORIZONTAL TABULATION)
 5442	0x240A	␊ (SYMBOL FOR LINE FEED)
 5443	0x240B	␋ (SYMBOL FOR VERTICAL TABULATION)
 5444	0x240C	␌ (SYMBOL FOR FORM FEED)
 5445	0x240D	␍ (SYMBOL FOR CARRIAGE RETURN)
 5446	0x240E	␎ (SYMBOL FOR SHIFT OUT)
 5447	0x240F	␏ (SYMBOL FOR SHIFT IN)
 5448	0x2410	␐ (SYMBOL FOR DATA LINK ESCAPE)
 5449	0x2411	␑ (SYMBOL FOR DEVICE CONTROL ONE)
 5450	0x2412	␒ (SYMBOL FOR DEVICE CONTROL TWO)
 5451	0x2413	␓ (SYMBOL FOR DEVICE CONTROL THREE)
 5452	0x2414	␔ (SYMBOL FOR DEVICE CONTROL FOUR)
 5453	0x2415	␕ (SYMBOL FOR NEGATIVE ACKNOWLEDGE)
 5454	0x2416	␖ (SYMBOL FOR SYNCHRONOUS IDLE)
 5455	0x2417	␗ (SYMBOL FOR END OF TRANSMISSION BLOCK)
 5456	0x2418	␘ (SYMBOL FOR CANCEL)
 5457	0x2419	␙ (SYMBOL FOR END OF MEDIUM)
 5458	0x241A	␚ (SYMBOL FOR SUBSTITUTE)
 5459	0x241B	␛ (SYMBOL FOR ESCAPE)
 5460	0x241C	␜ (SYMBOL FOR FILE SEPARATOR)
 5461	0x241D	␝ (SYMBOL FOR GROUP SEPARATOR)
 5462	0x241E	␞ (SYMBOL FOR RECORD SEPARATOR)
 5463	0x241F	␟ (SYMBOL FOR UNIT SEPARATOR)
 5464	0x2421	␡ (SYMBOL FOR DELETE)
 5465	0x20AC	€ (EURO SIGN)
"#

/-- encoding_tables/whatwg/index-big5.txt:4353-4509 -/
noncomputable def index35 : List Text := lines! r#" 5495	0x4E00	一 (<CJK Ideograph>)
 5496	0x4E59	乙 (<CJK Ideograph>)
 5497	0x4E01	丁 (<CJK Ideograph>)
 5498	0x4E03	七 (<CJK Ideograph>)
 5499	0x4E43	乃 (<CJK Ideograph>)
 5500	0x4E5D	九 (<CJK Ideograph>)
 5501	0x4E86	了 (<CJK Ideograph>)
 5502	0x4E8C	二 (<CJK Ideograph>)
 5503	0x4EBA	人 (<CJK Ideograph>)
 5504	0x513F	儿 (<CJK Ideograph>)
 5505	0x5165	入 (<CJK Ideograph>)
 5506	0x516B	八 (<CJK Ideograph>)
 5507	0x51E0	几 (<CJK Ideograph>)
 5508	0x5200	刀 (<CJK Ideograph>)
 5509	0x5201	刁 (<CJK Ideograph>)
 5510	0x529B	力 (<CJK Ideograph>)
 5511	0x5315	匕 (<CJK Ideograph>)
 5512	0x5341	十 (<CJK Ideograph>)
 5513	0x535C	卜 (<CJK Ideograph>)
 5514	0x53C8	又 (<CJK Ideograph>)
 5515	0x4E09	三 (<CJK Ideograph>)
 5516	0x4E0B	下 (<CJK Ideograph>)
 5517	0x4E08	丈 (<CJK Ideograph>)
 5518	0x4E0A	上 (<CJK Ideograph>)
 5519	0x4E2B	丫 (<CJK Ideograph>)
 5520	0x4E38	丸 (<CJK Ideograph>)
 5521	0x51E1	凡 (<CJK Ideograph>)
 5522	0x4E45	久 (<CJK Ideograph>)
 5523	0x4E48	么 (<CJK Ideograph>)
 5524	0x4E5F	也 (<CJK Ideograph>)
 5525	0x4E5E	乞 (<CJK Ideograph>)
 5526	0x4E8E	于 (<CJK Ideograph>)
 5527	0x4EA1	亡 (<CJK Ideograph>)
 5528	0x5140	兀 (<CJK Ideograph>)
 5529	0x5203	刃 (<CJK Ideograph>)
 5530	0x52FA	勺 (<CJK Ideograph>)
 5531	0x5343	千 (<CJK Ideograph>)
 5532	0x53C9	叉 (<CJK Ideograph>)
 5533	0x53E3	口 (<CJK Ideograph>)
 5534	0x571F	土 (<CJK Ideograph>)
 5535	0x58EB	士 (<CJK Ideograph>)
 5536	0x5915	夕 (<CJK Ideograph>)
 5537	0x5927	大 (<CJK Ideograph>)
 5538	0x5973	女 (<CJK Ideograph>)
 5539	0x5B50	子 (<CJK Ideograph>)
 5540	0x5B51	孑 (<CJK Ideograph>)
 5541	0x5B53	孓 (<CJK Ideograph>)
 5542	0x5BF8	寸 (<CJK Ideograph>)
 5543	0x5C0F	小 (<CJK Ideograph>)
 5544	0x5C22	尢 (<CJK Ideograph>)
 5545	0x5C38	尸 (<CJK Ideograph>)
 5546	0x5C71	山 (<CJK Ideograph>)
 5547	0x5DDD	川 (<CJK Ideograph>)
 5548	0x5DE5	工 (<CJK Ideograph>)
 5549	0x5DF1	己 (<CJK Ideograph>)
 5550	0x5DF2	已 (<CJK Ideograph>)
 5551	0x5DF3	巳 (<CJK Ideograph>)
 5552	0x5DFE	巾 (<CJK Ideograph>)
 5553	0x5E72	干 (<CJK Ideograph>)
 5554	0x5EFE	廾 (<CJK Ideograph>)
 5555	0x5F0B	弋 (<CJK Ideograph>)
 5556	0x5F13	弓 (<CJK Ideograph>)
 5557	0x624D	才 (<CJK Ideograph>)
 5558	0x4E11	丑 (<CJK Ideograph>)
 5559	0x4E10	丐 (<CJK Ideograph>)
 5560	0x4E0D	不 (<CJK Ideograph>)
 5561	0x4E2D	中 (<CJK Ideograph>)
 5562	0x4E30	丰 (<CJK Ideograph>)
 5563	0x4E39	丹 (<CJK Ideograph>)
 5564	0x4E4B	之 (<CJK Ideograph>)
 5565	0x5C39	尹 (<CJK Ideograph>)
 5566	0x4E88	予 (<CJK Ideograph>)
 5567	0x4E91	云 (<CJK Ideograph>)
 5568	0x4E95	井 (<CJK Ideograph>)
 5569	0x4E92	互 (<CJK Ideograph>)
 5570	0x4E94	五 (<CJK Ideograph>)
 5571	0x4EA2	亢 (<CJK Ideograph>)
 5572	0x4EC1	仁 (<CJK Ideograph>)
 5573	0x4EC0	什 (<CJK Ideograph>)
 5574	0x4EC3	仃 (<CJK Ideograph>)
 5575	0x4EC6	仆 (<CJK Ideograph>)
 5576	0x4EC7	仇 (<CJK Ideograph>)
 5577	0x4ECD	仍 (<CJK Ideograph>)
 5578	0x4ECA	今 (<CJK Ideograph>)
 5579	0x4ECB	介 (<CJK Ideograph>)
 5580	0x4EC4	仄 (<CJK Ideograph>)
 5581	0x5143	元 (<CJK Ideograph>)
 5582	0x5141	允 (<CJK Ideograph>)
 5583	0x5167	內 (<CJK Ideograph>)
 5584	0x516D	六 (<CJK Ideograph>)
 5585	0x516E	兮 (<CJK Ideograph>)
 5586	0x516C	公 (<CJK Ideograph>)
 5587	0x5197	冗 (<CJK Ideograph>)
 5588	0x51F6	凶 (<CJK Ideograph>)
 5589	0x5206	分 (<CJK Ideograph>)
 5590	0x5207	切 (<CJK Ideograph>)
 5591	0x5208	刈 (<CJK Ideograph>)
 5592	0x52FB	勻 (<CJK Ideograph>)
 5593	0x52FE	勾 (<CJK Ideograph>)
 5594	0x52FF	勿 (<CJK Ideograph>)
 5595	0x5316	化 (<CJK Ideograph>)
 5596	0x5339	匹 (<CJK Ideograph>)
 5597	0x5348	午 (<CJK Ideograph>)
 5598	0x5347	升 (<CJK Ideograph>)
 5599	0x5345	卅 (<CJK Ideograph>)
 5600	0x535E	卞 (<CJK Ideograph>)
 5601	0x5384	厄 (<CJK Ideograph>)
 5602	0x53CB	友 (<CJK Ideograph>)
 5603	0x53CA	及 (<CJK Ideograph>)
 5604	0x53CD	反 (<CJK Ideograph>)
 5605	0x58EC	壬 (<CJK Ideograph>)
 5606	0x5929	天 (<CJK Ideograph>)
 5607	0x592B	夫 (<CJK Ideograph>)
 5608	0x592A	太 (<CJK Ideograph>)
 5609	0x592D	夭 (<CJK Ideograph>)
 5610	0x5B54	孔 (<CJK Ideograph>)
 5611	0x5C11	少 (<CJK Ideograph>)
 5612	0x5C24	尤 (<CJK Ideograph>)
 5613	0x5C3A	尺 (<CJK Ideograph>)
 5614	0x5C6F	屯 (<CJK Ideograph>)
 5615	0x5DF4	巴 (<CJK Ideograph>)
 5616	0x5E7B	幻 (<CJK Ideograph>)
 5617	0x5EFF	廿 (<CJK Ideograph>)
 5618	0x5F14	弔 (<CJK Ideograph>)
 5619	0x5F15	引 (<CJK Ideograph>)
 5620	0x5FC3	心 (<CJK Ideograph>)
 5621	0x6208	戈 (<CJK Ideograph>)
 5622	0x6236	戶 (<CJK Ideograph>)
 5623	0x624B	手 (<CJK Ideograph>)
 5624	0x624E	扎 (<CJK Ideograph>)
 5625	0x652F	支 (<CJK Ideograph>)
 5626	0x6587	文 (<CJK Ideograph>)
 5627	0x6597	斗 (<CJK Ideograph>)
 5628	0x65A4	斤 (<CJK Ideograph>)
 5629	0x65B9	方 (<CJK Ideograph>)
 5630	0x65E5	日 (<CJK Ideograph>)
 5631	0x66F0	曰 (<CJK Ideograph>)
 5632	0x6708	月 (<CJK Ideograph>)
 5633	0x6728	木 (<CJK Ideograph>)
 5634	0x6B20	欠 (<CJK Ideograph>)
 5635	0x6B62	止 (<CJK Ideograph>)
 5636	0x6B79	歹 (<CJK Ideograph>)
 5637	0x6BCB	毋 (<CJK Ideograph>)
 5638	0x6BD4	比 (<CJK Ideograph>)
 5639	0x6BDB	毛 (<CJK Ideograph>)
 5640	0x6C0F	氏 (<CJK Ideograph>)
 5641	0x6C34	水 (<CJK Ideograph>)
 5642	0x706B	火 (<CJK Ideograph>)
 5643	0x722A	爪 (<CJK Ideograph>)
 5644	0x7236	父 (<CJK Ideograph>)
 5645	0x723B	爻 (<CJK Ideograph>)
 5646	0x7247	片 (<CJK Ideograph>)
 5647	0x7259	牙 (<CJK Ideograph>)
 5648	0x725B	牛 (<CJK Ideograph>)
 5649	0x72AC	犬 (<CJK Ideograph>)
 5650	0x738B	王 (<CJK Ideograph>)
 5651	0x4E19	丙 (<CJK Ideograph>)
"#

/-- encoding_tables/whatwg/index-big5.txt:4510-4666 -/
noncomputable def index36 : List Text := lines! r#" 5652	0x4E16	世 (<CJK Ideograph>)
 5653	0x4E15	丕 (<CJK Ideograph>)
 5654	0x4E14	且 (<CJK Ideograph>)
 5655	0x4E18	丘 (<CJK Ideograph>)
 5656	0x4E3B	主 (<CJK Ideograph>)
 5657	0x4E4D	乍 (<CJK Ideograph>)
 5658	0x4E4F	乏 (<CJK Ideograph>)
 5659	0x4E4E	乎 (<CJK Ideograph>)
 5660	0x4EE5	以 (<CJK Ideograph>)
 5661	0x4ED8	付 (<CJK Ideograph>)
 5662	0x4ED4	仔 (<CJK Ideograph>)
 5663	0x4ED5	仕 (<CJK Ideograph>)
 5664	0x4ED6	他 (<CJK Ideograph>)
 5665	0x4ED7	仗 (<CJK Ideograph>)
 5666	0x4EE3	代 (<CJK Ideograph>)
 5667	0x4EE4	令 (<CJK Ideograph>)
 5668	0x4ED9	仙 (<CJK Ideograph>)
 5669	0x4EDE	仞 (<CJK Ideograph>)
 5670	0x5145	充 (<CJK Ideograph>)
 5671	0x5144	兄 (<CJK Ideograph>)
 5672	0x5189	冉 (<CJK Ideograph>)
 5673	0x518A	冊 (<CJK Ideograph>)
 5674	0x51AC	冬 (<CJK Ideograph>)
 5675	0x51F9	凹 (<CJK Ideograph>)
 5676	0x51FA	出 (<CJK Ideograph>)
 5677	0x51F8	凸 (<CJK Ideograph>)
 5678	0x520A	刊 (<CJK Ideograph>)
 5679	0x52A0	加 (<CJK Ideograph>)
 5680	0x529F	功 (<CJK Ideograph>)
 5681	0x5305	包 (<CJK Ideograph>)
 5682	0x5306	匆 (<CJK Ideograph>)
 5683	0x5317	北 (<CJK Ideograph>)
 5684	0x531D	匝 (<CJK Ideograph>)
 5685	0x4EDF	仟 (<CJK Ideograph>)
 5686	0x534A	半 (<CJK Ideograph>)
 5687	0x5349	卉 (<CJK Ideograph>)
 5688	0x5361	卡 (<CJK Ideograph>)
 5689	0x5360	占 (<CJK Ideograph>)
 5690	0x536F	卯 (<CJK Ideograph>)
 5691	0x536E	卮 (<CJK Ideograph>)
 5692	0x53BB	去 (<CJK Ideograph>)
 5693	0x53EF	可 (<CJK Ideograph>)
 5694	0x53E4	古 (<CJK Ideograph>)
 5695	0x53F3	右 (<CJK Ideograph>)
 5696	0x53EC	召 (<CJK Ideograph>)
 5697	0x53EE	叮 (<CJK Ideograph>)
 5698	0x53E9	叩 (<CJK Ideograph>)
 5699	0x53E8	叨 (<CJK Ideograph>)
 5700	0x53FC	叼 (<CJK Ideograph>)
 5701	0x53F8	司 (<CJK Ideograph>)
 5702	0x53F5	叵 (<CJK Ideograph>)
 5703	0x53EB	叫 (<CJK Ideograph>)
 5704	0x53E6	另 (<CJK Ideograph>)
 5705	0x53EA	只 (<CJK Ideograph>)
 5706	0x53F2	史 (<CJK Ideograph>)
 5707	0x53F1	叱 (<CJK Ideograph>)
 5708	0x53F0	台 (<CJK Ideograph>)
 5709	0x53E5	句 (<CJK Ideograph>)
 5710	0x53ED	叭 (<CJK Ideograph>)
 5711	0x53FB	叻 (<CJK Ideograph>)
 5712	0x56DB	四 (<CJK Ideograph>)
 5713	0x56DA	囚 (<CJK Ideograph>)
 5714	0x5916	外 (<CJK Ideograph>)
 5715	0x592E	央 (<CJK Ideograph>)
 5716	0x5931	失 (<CJK Ideograph>)
 5717	0x5974	奴 (<CJK Ideograph>)
 5718	0x5976	奶 (<CJK Ideograph>)
 5719	0x5B55	孕 (<CJK Ideograph>)
 5720	0x5B83	它 (<CJK Ideograph>)
 5721	0x5C3C	尼 (<CJK Ideograph>)
 5722	0x5DE8	巨 (<CJK Ideograph>)
 5723	0x5DE7	巧 (<CJK Ideograph>)
 5724	0x5DE6	左 (<CJK Ideograph>)
 5725	0x5E02	市 (<CJK Ideograph>)
 5726	0x5E03	布 (<CJK Ideograph>)
 5727	0x5E73	平 (<CJK Ideograph>)
 5728	0x5E7C	幼 (<CJK Ideograph>)
 5729	0x5F01	弁 (<CJK Ideograph>)
 5730	0x5F18	弘 (<CJK Ideograph>)
 5731	0x5F17	弗 (<CJK Ideograph>)
 5732	0x5FC5	必 (<CJK Ideograph>)
 5733	0x620A	戊 (<CJK Ideograph>)
 5734	0x6253	打 (<CJK Ideograph>)
 5735	0x6254	扔 (<CJK Ideograph>)
 5736	0x6252	扒 (<CJK Ideograph>)
 5737	0x6251	扑 (<CJK Ideograph>)
 5738	0x65A5	斥 (<CJK Ideograph>)
 5739	0x65E6	旦 (<CJK Ideograph>)
 5740	0x672E	朮 (<CJK Ideograph>)
 5741	0x672C	本 (<CJK Ideograph>)
 5742	0x672A	未 (<CJK Ideograph>)
 5743	0x672B	末 (<CJK Ideograph>)
 5744	0x672D	札 (<CJK Ideograph>)
 5745	0x6B63	正 (<CJK Ideograph>)
 5746	0x6BCD	母 (<CJK Ideograph>)
 5747	0x6C11	民 (<CJK Ideograph>)
 5748	0x6C10	氐 (<CJK Ideograph>)
 5749	0x6C38	永 (<CJK Ideograph>)
 5750	0x6C41	汁 (<CJK Ideograph>)
 5751	0x6C40	汀 (<CJK Ideograph>)
 5752	0x6C3E	氾 (<CJK Ideograph>)
 5753	0x72AF	犯 (<CJK Ideograph>)
 5754	0x7384	玄 (<CJK Ideograph>)
 5755	0x7389	玉 (<CJK Ideograph>)
 5756	0x74DC	瓜 (<CJK Ideograph>)
 5757	0x74E6	瓦 (<CJK Ideograph>)
 5758	0x7518	甘 (<CJK Ideograph>)
 5759	0x751F	生 (<CJK Ideograph>)
 5760	0x7528	用 (<CJK Ideograph>)
 5761	0x7529	甩 (<CJK Ideograph>)
 5762	0x7530	田 (<CJK Ideograph>)
 5763	0x7531	由 (<CJK Ideograph>)
 5764	0x7532	甲 (<CJK Ideograph>)
 5765	0x7533	申 (<CJK Ideograph>)
 5766	0x758B	疋 (<CJK Ideograph>)
 5767	0x767D	白 (<CJK Ideograph>)
 5768	0x76AE	皮 (<CJK Ideograph>)
 5769	0x76BF	皿 (<CJK Ideograph>)
 5770	0x76EE	目 (<CJK Ideograph>)
 5771	0x77DB	矛 (<CJK Ideograph>)
 5772	0x77E2	矢 (<CJK Ideograph>)
 5773	0x77F3	石 (<CJK Ideograph>)
 5774	0x793A	示 (<CJK Ideograph>)
 5775	0x79BE	禾 (<CJK Ideograph>)
 5776	0x7A74	穴 (<CJK Ideograph>)
 5777	0x7ACB	立 (<CJK Ideograph>)
 5778	0x4E1E	丞 (<CJK Ideograph>)
 5779	0x4E1F	丟 (<CJK Ideograph>)
 5780	0x4E52	乒 (<CJK Ideograph>)
 5781	0x4E53	乓 (<CJK Ideograph>)
 5782	0x4E69	乩 (<CJK Ideograph>)
 5783	0x4E99	亙 (<CJK Ideograph>)
 5784	0x4EA4	交 (<CJK Ideograph>)
 5785	0x4EA6	亦 (<CJK Ideograph>)
 5786	0x4EA5	亥 (<CJK Ideograph>)
 5787	0x4EFF	仿 (<CJK Ideograph>)
 5788	0x4F09	伉 (<CJK Ideograph>)
 5789	0x4F19	伙 (<CJK Ideograph>)
 5790	0x4F0A	伊 (<CJK Ideograph>)
 5791	0x4F15	伕 (<CJK Ideograph>)
 5792	0x4F0D	伍 (<CJK Ideograph>)
 5793	0x4F10	伐 (<CJK Ideograph>)
 5794	0x4F11	休 (<CJK Ideograph>)
 5795	0x4F0F	伏 (<CJK Ideograph>)
 5796	0x4EF2	仲 (<CJK Ideograph>)
 5797	0x4EF6	件 (<CJK Ideograph>)
 5798	0x4EFB	任 (<CJK Ideograph>)
 5799	0x4EF0	仰 (<CJK Ideograph>)
 5800	0x4EF3	仳 (<CJK Ideograph>)
 5801	0x4EFD	份 (<CJK Ideograph>)
 5802	0x4F01	企 (<CJK Ideograph>)
 5803	0x4F0B	伋 (<CJK Ideograph>)
 5804	0x5149	光 (<CJK Ideograph>)
 5805	0x5147	兇 (<CJK Ideograph>)
 5806	0x5146	兆 (<CJK Ideograph>)
 5807	0x5148	先 (<CJK Ideograph>)
 5808	0x5168	全 (<CJK Ideograph>)
"#

/-- encoding_tables/whatwg/index-big5.txt:4667-4823 -/
noncomputable def index37 : List Text := lines! r#" 5809	0x5171	共 (<CJK Ideograph>)
 5810	0x518D	再 (<CJK Ideograph>)
 5811	0x51B0	冰 (<CJK Ideograph>)
 5812	0x5217	列 (<CJK Ideograph>)
 5813	0x5211	刑 (<CJK Ideograph>)
 5814	0x5212	划 (<CJK Ideograph>)
 5815	0x520E	刎 (<CJK Ideograph>)
 5816	0x5216	刖 (<CJK Ideograph>)
 5817	0x52A3	劣 (<CJK Ideograph>)
 5818	0x5308	匈 (<CJK Ideograph>)
 5819	0x5321	匡 (<CJK Ideograph>)
 5820	0x5320	匠 (<CJK Ideograph>)
 5821	0x5370	印 (<CJK Ideograph>)
 5822	0x5371	危 (<CJK Ideograph>)
 5823	0x5409	吉 (<CJK Ideograph>)
 5824	0x540F	吏 (<CJK Ideograph>)
 5825	0x540C	同 (<CJK Ideograph>)
 5826	0x540A	吊 (<CJK Ideograph>)
 5827	0x5410	吐 (<CJK Ideograph>)
 5828	0x5401	吁 (<CJK Ideograph>)
 5829	0x540B	吋 (<CJK Ideograph>)
 5830	0x5404	各 (<CJK Ideograph>)
 5831	0x5411	向 (<CJK Ideograph>)
 5832	0x540D	名 (<CJK Ideograph>)
 5833	0x5408	合 (<CJK Ideograph>)
 5834	0x5403	吃 (<CJK Ideograph>)
 5835	0x540E	后 (<CJK Ideograph>)
 5836	0x5406	吆 (<CJK Ideograph>)
 5837	0x5412	吒 (<CJK Ideograph>)
 5838	0x56E0	因 (<CJK Ideograph>)
 5839	0x56DE	回 (<CJK Ideograph>)
 5840	0x56DD	囝 (<CJK Ideograph>)
 5841	0x5733	圳 (<CJK Ideograph>)
 5842	0x5730	地 (<CJK Ideograph>)
 5843	0x5728	在 (<CJK Ideograph>)
 5844	0x572D	圭 (<CJK Ideograph>)
 5845	0x572C	圬 (<CJK Ideograph>)
 5846	0x572F	圯 (<CJK Ideograph>)
 5847	0x5729	圩 (<CJK Ideograph>)
 5848	0x5919	夙 (<CJK Ideograph>)
 5849	0x591A	多 (<CJK Ideograph>)
 5850	0x5937	夷 (<CJK Ideograph>)
 5851	0x5938	夸 (<CJK Ideograph>)
 5852	0x5984	妄 (<CJK Ideograph>)
 5853	0x5978	奸 (<CJK Ideograph>)
 5854	0x5983	妃 (<CJK Ideograph>)
 5855	0x597D	好 (<CJK Ideograph>)
 5856	0x5979	她 (<CJK Ideograph>)
 5857	0x5982	如 (<CJK Ideograph>)
 5858	0x5981	妁 (<CJK Ideograph>)
 5859	0x5B57	字 (<CJK Ideograph>)
 5860	0x5B58	存 (<CJK Ideograph>)
 5861	0x5B87	宇 (<CJK Ideograph>)
 5862	0x5B88	守 (<CJK Ideograph>)
 5863	0x5B85	宅 (<CJK Ideograph>)
 5864	0x5B89	安 (<CJK Ideograph>)
 5865	0x5BFA	寺 (<CJK Ideograph>)
 5866	0x5C16	尖 (<CJK Ideograph>)
 5867	0x5C79	屹 (<CJK Ideograph>)
 5868	0x5DDE	州 (<CJK Ideograph>)
 5869	0x5E06	帆 (<CJK Ideograph>)
 5870	0x5E76	并 (<CJK Ideograph>)
 5871	0x5E74	年 (<CJK Ideograph>)
 5872	0x5F0F	式 (<CJK Ideograph>)
 5873	0x5F1B	弛 (<CJK Ideograph>)
 5874	0x5FD9	忙 (<CJK Ideograph>)
 5875	0x5FD6	忖 (<CJK Ideograph>)
 5876	0x620E	戎 (<CJK Ideograph>)
 5877	0x620C	戌 (<CJK Ideograph>)
 5878	0x620D	戍 (<CJK Ideograph>)
 5879	0x6210	成 (<CJK Ideograph>)
 5880	0x6263	扣 (<CJK Ideograph>)
 5881	0x625B	扛 (<CJK Ideograph>)
 5882	0x6258	托 (<CJK Ideograph>)
 5883	0x6536	收 (<CJK Ideograph>)
 5884	0x65E9	早 (<CJK Ideograph>)
 5885	0x65E8	旨 (<CJK Ideograph>)
 5886	0x65EC	旬 (<CJK Ideograph>)
 5887	0x65ED	旭 (<CJK Ideograph>)
 5888	0x66F2	曲 (<CJK Ideograph>)
 5889	0x66F3	曳 (<CJK Ideograph>)
 5890	0x6709	有 (<CJK Ideograph>)
 5891	0x673D	朽 (<CJK Ideograph>)
 5892	0x6734	朴 (<CJK Ideograph>)
 5893	0x6731	朱 (<CJK Ideograph>)
 5894	0x6735	朵 (<CJK Ideograph>)
 5895	0x6B21	次 (<CJK Ideograph>)
 5896	0x6B64	此 (<CJK Ideograph>)
 5897	0x6B7B	死 (<CJK Ideograph>)
 5898	0x6C16	氖 (<CJK Ideograph>)
 5899	0x6C5D	汝 (<CJK Ideograph>)
 5900	0x6C57	汗 (<CJK Ideograph>)
 5901	0x6C59	汙 (<CJK Ideograph>)
 5902	0x6C5F	江 (<CJK Ideograph>)
 5903	0x6C60	池 (<CJK Ideograph>)
 5904	0x6C50	汐 (<CJK Ideograph>)
 5905	0x6C55	汕 (<CJK Ideograph>)
 5906	0x6C61	污 (<CJK Ideograph>)
 5907	0x6C5B	汛 (<CJK Ideograph>)
 5908	0x6C4D	汍 (<CJK Ideograph>)
 5909	0x6C4E	汎 (<CJK Ideograph>)
 5910	0x7070	灰 (<CJK Ideograph>)
 5911	0x725F	牟 (<CJK Ideograph>)
 5912	0x725D	牝 (<CJK Ideograph>)
 5913	0x767E	百 (<CJK Ideograph>)
 5914	0x7AF9	竹 (<CJK Ideograph>)
 5915	0x7C73	米 (<CJK Ideograph>)
 5916	0x7CF8	糸 (<CJK Ideograph>)
 5917	0x7F36	缶 (<CJK Ideograph>)
 5918	0x7F8A	羊 (<CJK Ideograph>)
 5919	0x7FBD	羽 (<CJK Ideograph>)
 5920	0x8001	老 (<CJK Ideograph>)
 5921	0x8003	考 (<CJK Ideograph>)
 5922	0x800C	而 (<CJK Ideograph>)
 5923	0x8012	耒 (<CJK Ideograph>)
 5924	0x8033	耳 (<CJK Ideograph>)
 5925	0x807F	聿 (<CJK Ideograph>)
 5926	0x8089	肉 (<CJK Ideograph>)
 5927	0x808B	肋 (<CJK Ideograph>)
 5928	0x808C	肌 (<CJK Ideograph>)
 5929	0x81E3	臣 (<CJK Ideograph>)
 5930	0x81EA	自 (<CJK Ideograph>)
 5931	0x81F3	至 (<CJK Ideograph>)
 5932	0x81FC	臼 (<CJK Ideograph>)
 5933	0x820C	舌 (<CJK Ideograph>)
 5934	0x821B	舛 (<CJK Ideograph>)
 5935	0x821F	舟 (<CJK Ideograph>)
 5936	0x826E	艮 (<CJK Ideograph>)
 5937	0x8272	色 (<CJK Ideograph>)
 5938	0x827E	艾 (<CJK Ideograph>)
 5939	0x866B	虫 (<CJK Ideograph>)
 5940	0x8840	血 (<CJK Ideograph>)
 5941	0x884C	行 (<CJK Ideograph>)
 5942	0x8863	衣 (<CJK Ideograph>)
 5943	0x897F	西 (<CJK Ideograph>)
 5944	0x9621	阡 (<CJK Ideograph>)
 5945	0x4E32	串 (<CJK Ideograph>)
 5946	0x4EA8	亨 (<CJK Ideograph>)
 5947	0x4F4D	位 (<CJK Ideograph>)
 5948	0x4F4F	住 (<CJK Ideograph>)
 5949	0x4F47	佇 (<CJK Ideograph>)
 5950	0x4F57	佗 (<CJK Ideograph>)
 5951	0x4F5E	佞 (<CJK Ideograph>)
 5952	0x4F34	伴 (<CJK Ideograph>)
 5953	0x4F5B	佛 (<CJK Ideograph>)
 5954	0x4F55	何 (<CJK Ideograph>)
 5955	0x4F30	估 (<CJK Ideograph>)
 5956	0x4F50	佐 (<CJK Ideograph>)
 5957	0x4F51	佑 (<CJK Ideograph>)
 5958	0x4F3D	伽 (<CJK Ideograph>)
 5959	0x4F3A	伺 (<CJK Ideograph>)
 5960	0x4F38	伸 (<CJK Ideograph>)
 5961	0x4F43	佃 (<CJK Ideograph>)
 5962	0x4F54	佔 (<CJK Ideograph>)
 5963	0x4F3C	似 (<CJK Ideograph>)
 5964	0x4F46	但 (<CJK Ideograph>)
 5965	0x4F63	佣 (<CJK Ideograph>)
"#

/-- encoding_tables/whatwg/index-big5.txt:4824-4980 -/
noncomputable def index38 : List Text := lines! r#" 5966	0x4F5C	作 (<CJK Ideograph>)
 5967	0x4F60	你 (<CJK Ideograph>)
 5968	0x4F2F	伯 (<CJK Ideograph>)
 5969	0x4F4E	低 (<CJK Ideograph>)
 5970	0x4F36	伶 (<CJK Ideograph>)
 5971	0x4F59	余 (<CJK Ideograph>)
 5972	0x4F5D	佝 (<CJK Ideograph>)
 5973	0x4F48	佈 (<CJK Ideograph>)
 5974	0x4F5A	佚 (<CJK Ideograph>)
 5975	0x514C	兌 (<CJK Ideograph>)
 5976	0x514B	克 (<CJK Ideograph>)
 5977	0x514D	免 (<CJK Ideograph>)
 5978	0x5175	兵 (<CJK Ideograph>)
 5979	0x51B6	冶 (<CJK Ideograph>)
 5980	0x51B7	冷 (<CJK Ideograph>)
 5981	0x5225	別 (<CJK Ideograph>)
 5982	0x5224	判 (<CJK Ideograph>)
 5983	0x5229	利 (<CJK Ideograph>)
 5984	0x522A	刪 (<CJK Ideograph>)
 5985	0x5228	刨 (<CJK Ideograph>)
 5986	0x52AB	劫 (<CJK Ideograph>)
 5987	0x52A9	助 (<CJK Ideograph>)
 5988	0x52AA	努 (<CJK Ideograph>)
 5989	0x52AC	劬 (<CJK Ideograph>)
 5990	0x5323	匣 (<CJK Ideograph>)
 5991	0x5373	即 (<CJK Ideograph>)
 5992	0x5375	卵 (<CJK Ideograph>)
 5993	0x541D	吝 (<CJK Ideograph>)
 5994	0x542D	吭 (<CJK Ideograph>)
 5995	0x541E	吞 (<CJK Ideograph>)
 5996	0x543E	吾 (<CJK Ideograph>)
 5997	0x5426	否 (<CJK Ideograph>)
 5998	0x544E	呎 (<CJK Ideograph>)
 5999	0x5427	吧 (<CJK Ideograph>)
 6000	0x5446	呆 (<CJK Ideograph>)
 6001	0x5443	呃 (<CJK Ideograph>)
 6002	0x5433	吳 (<CJK Ideograph>)
 6003	0x5448	呈 (<CJK Ideograph>)
 6004	0x5442	呂 (<CJK Ideograph>)
 6005	0x541B	君 (<CJK Ideograph>)
 6006	0x5429	吩 (<CJK Ideograph>)
 6007	0x544A	告 (<CJK Ideograph>)
 6008	0x5439	吹 (<CJK Ideograph>)
 6009	0x543B	吻 (<CJK Ideograph>)
 6010	0x5438	吸 (<CJK Ideograph>)
 6011	0x542E	吮 (<CJK Ideograph>)
 6012	0x5435	吵 (<CJK Ideograph>)
 6013	0x5436	吶 (<CJK Ideograph>)
 6014	0x5420	吠 (<CJK Ideograph>)
 6015	0x543C	吼 (<CJK Ideograph>)
 6016	0x5440	呀 (<CJK Ideograph>)
 6017	0x5431	吱 (<CJK Ideograph>)
 6018	0x542B	含 (<CJK Ideograph>)
 6019	0x541F	吟 (<CJK Ideograph>)
 6020	0x542C	听 (<CJK Ideograph>)
 6021	0x56EA	囪 (<CJK Ideograph>)
 6022	0x56F0	困 (<CJK Ideograph>)
 6023	0x56E4	囤 (<CJK Ideograph>)
 6024	0x56EB	囫 (<CJK Ideograph>)
 6025	0x574A	坊 (<CJK Ideograph>)
 6026	0x5751	坑 (<CJK Ideograph>)
 6027	0x5740	址 (<CJK Ideograph>)
 6028	0x574D	坍 (<CJK Ideograph>)
 6029	0x5747	均 (<CJK Ideograph>)
 6030	0x574E	坎 (<CJK Ideograph>)
 6031	0x573E	圾 (<CJK Ideograph>)
 6032	0x5750	坐 (<CJK Ideograph>)
 6033	0x574F	坏 (<CJK Ideograph>)
 6034	0x573B	圻 (<CJK Ideograph>)
 6035	0x58EF	壯 (<CJK Ideograph>)
 6036	0x593E	夾 (<CJK Ideograph>)
 6037	0x599D	妝 (<CJK Ideograph>)
 6038	0x5992	妒 (<CJK Ideograph>)
 6039	0x59A8	妨 (<CJK Ideograph>)
 6040	0x599E	妞 (<CJK Ideograph>)
 6041	0x59A3	妣 (<CJK Ideograph>)
 6042	0x5999	妙 (<CJK Ideograph>)
 6043	0x5996	妖 (<CJK Ideograph>)
 6044	0x598D	妍 (<CJK Ideograph>)
 6045	0x59A4	妤 (<CJK Ideograph>)
 6046	0x5993	妓 (<CJK Ideograph>)
 6047	0x598A	妊 (<CJK Ideograph>)
 6048	0x59A5	妥 (<CJK Ideograph>)
 6049	0x5B5D	孝 (<CJK Ideograph>)
 6050	0x5B5C	孜 (<CJK Ideograph>)
 6051	0x5B5A	孚 (<CJK Ideograph>)
 6052	0x5B5B	孛 (<CJK Ideograph>)
 6053	0x5B8C	完 (<CJK Ideograph>)
 6054	0x5B8B	宋 (<CJK Ideograph>)
 6055	0x5B8F	宏 (<CJK Ideograph>)
 6056	0x5C2C	尬 (<CJK Ideograph>)
 6057	0x5C40	局 (<CJK Ideograph>)
 6058	0x5C41	屁 (<CJK Ideograph>)
 6059	0x5C3F	尿 (<CJK Ideograph>)
 6060	0x5C3E	尾 (<CJK Ideograph>)
 6061	0x5C90	岐 (<CJK Ideograph>)
 6062	0x5C91	岑 (<CJK Ideograph>)
 6063	0x5C94	岔 (<CJK Ideograph>)
 6064	0x5C8C	岌 (<CJK Ideograph>)
 6065	0x5DEB	巫 (<CJK Ideograph>)
 6066	0x5E0C	希 (<CJK Ideograph>)
 6067	0x5E8F	序 (<CJK Ideograph>)
 6068	0x5E87	庇 (<CJK Ideograph>)
 6069	0x5E8A	床 (<CJK Ideograph>)
 6070	0x5EF7	廷 (<CJK Ideograph>)
 6071	0x5F04	弄 (<CJK Ideograph>)
 6072	0x5F1F	弟 (<CJK Ideograph>)
 6073	0x5F64	彤 (<CJK Ideograph>)
 6074	0x5F62	形 (<CJK Ideograph>)
 6075	0x5F77	彷 (<CJK Ideograph>)
 6076	0x5F79	役 (<CJK Ideograph>)
 6077	0x5FD8	忘 (<CJK Ideograph>)
 6078	0x5FCC	忌 (<CJK Ideograph>)
 6079	0x5FD7	志 (<CJK Ideograph>)
 6080	0x5FCD	忍 (<CJK Ideograph>)
 6081	0x5FF1	忱 (<CJK Ideograph>)
 6082	0x5FEB	快 (<CJK Ideograph>)
 6083	0x5FF8	忸 (<CJK Ideograph>)
 6084	0x5FEA	忪 (<CJK Ideograph>)
 6085	0x6212	戒 (<CJK Ideograph>)
 6086	0x6211	我 (<CJK Ideograph>)
 6087	0x6284	抄 (<CJK Ideograph>)
 6088	0x6297	抗 (<CJK Ideograph>)
 6089	0x6296	抖 (<CJK Ideograph>)
 6090	0x6280	技 (<CJK Ideograph>)
 6091	0x6276	扶 (<CJK Ideograph>)
 6092	0x6289	抉 (<CJK Ideograph>)
 6093	0x626D	扭 (<CJK Ideograph>)
 6094	0x628A	把 (<CJK Ideograph>)
 6095	0x627C	扼 (<CJK Ideograph>)
 6096	0x627E	找 (<CJK Ideograph>)
 6097	0x6279	批 (<CJK Ideograph>)
 6098	0x6273	扳 (<CJK Ideograph>)
 6099	0x6292	抒 (<CJK Ideograph>)
 6100	0x626F	扯 (<CJK Ideograph>)
 6101	0x6298	折 (<CJK Ideograph>)
 6102	0x626E	扮 (<CJK Ideograph>)
 6103	0x6295	投 (<CJK Ideograph>)
 6104	0x6293	抓 (<CJK Ideograph>)
 6105	0x6291	抑 (<CJK Ideograph>)
 6106	0x6286	抆 (<CJK Ideograph>)
 6107	0x6539	改 (<CJK Ideograph>)
 6108	0x653B	攻 (<CJK Ideograph>)
 6109	0x6538	攸 (<CJK Ideograph>)
 6110	0x65F1	旱 (<CJK Ideograph>)
 6111	0x66F4	更 (<CJK Ideograph>)
 6112	0x675F	束 (<CJK Ideograph>)
 6113	0x674E	李 (<CJK Ideograph>)
 6114	0x674F	杏 (<CJK Ideograph>)
 6115	0x6750	材 (<CJK Ideograph>)
 6116	0x6751	村 (<CJK Ideograph>)
 6117	0x675C	杜 (<CJK Ideograph>)
 6118	0x6756	杖 (<CJK Ideograph>)
 6119	0x675E	杞 (<CJK Ideograph>)
 6120	0x6749	杉 (<CJK Ideograph>)
 6121	0x6746	杆 (<CJK Ideograph>)
 6122	0x6760	杠 (<CJK Ideograph>)
"#

/-- encoding_tables/whatwg/index-big5.txt:4981-5137 -/
noncomputable def index39 : List Text := lines! r#" 6123	0x6753	杓 (<CJK Ideograph>)
 6124	0x6757	杗 (<CJK Ideograph>)
 6125	0x6B65	步 (<CJK Ideograph>)
 6126	0x6BCF	每 (<CJK Ideograph>)
 6127	0x6C42	求 (<CJK Ideograph>)
 6128	0x6C5E	汞 (<CJK Ideograph>)
 6129	0x6C99	沙 (<CJK Ideograph>)
 6130	0x6C81	沁 (<CJK Ideograph>)
 6131	0x6C88	沈 (<CJK Ideograph>)
 6132	0x6C89	沉 (<CJK Ideograph>)
 6133	0x6C85	沅 (<CJK Ideograph>)
 6134	0x6C9B	沛 (<CJK Ideograph>)
 6135	0x6C6A	汪 (<CJK Ideograph>)
 6136	0x6C7A	決 (<CJK Ideograph>)
 6137	0x6C90	沐 (<CJK Ideograph>)
 6138	0x6C70	汰 (<CJK Ideograph>)
 6139	0x6C8C	沌 (<CJK Ideograph>)
 6140	0x6C68	汨 (<CJK Ideograph>)
 6141	0x6C96	沖 (<CJK Ideograph>)
 6142	0x6C92	沒 (<CJK Ideograph>)
 6143	0x6C7D	汽 (<CJK Ideograph>)
 6144	0x6C83	沃 (<CJK Ideograph>)
 6145	0x6C72	汲 (<CJK Ideograph>)
 6146	0x6C7E	汾 (<CJK Ideograph>)
 6147	0x6C74	汴 (<CJK Ideograph>)
 6148	0x6C86	沆 (<CJK Ideograph>)
 6149	0x6C76	汶 (<CJK Ideograph>)
 6150	0x6C8D	沍 (<CJK Ideograph>)
 6151	0x6C94	沔 (<CJK Ideograph>)
 6152	0x6C98	沘 (<CJK Ideograph>)
 6153	0x6C82	沂 (<CJK Ideograph>)
 6154	0x7076	灶 (<CJK Ideograph>)
 6155	0x707C	灼 (<CJK Ideograph>)
 6156	0x707D	災 (<CJK Ideograph>)
 6157	0x7078	灸 (<CJK Ideograph>)
 6158	0x7262	牢 (<CJK Ideograph>)
 6159	0x7261	牡 (<CJK Ideograph>)
 6160	0x7260	牠 (<CJK Ideograph>)
 6161	0x72C4	狄 (<CJK Ideograph>)
 6162	0x72C2	狂 (<CJK Ideograph>)
 6163	0x7396	玖 (<CJK Ideograph>)
 6164	0x752C	甬 (<CJK Ideograph>)
 6165	0x752B	甫 (<CJK Ideograph>)
 6166	0x7537	男 (<CJK Ideograph>)
 6167	0x7538	甸 (<CJK Ideograph>)
 6168	0x7682	皂 (<CJK Ideograph>)
 6169	0x76EF	盯 (<CJK Ideograph>)
 6170	0x77E3	矣 (<CJK Ideograph>)
 6171	0x79C1	私 (<CJK Ideograph>)
 6172	0x79C0	秀 (<CJK Ideograph>)
 6173	0x79BF	禿 (<CJK Ideograph>)
 6174	0x7A76	究 (<CJK Ideograph>)
 6175	0x7CFB	系 (<CJK Ideograph>)
 6176	0x7F55	罕 (<CJK Ideograph>)
 6177	0x8096	肖 (<CJK Ideograph>)
 6178	0x8093	肓 (<CJK Ideograph>)
 6179	0x809D	肝 (<CJK Ideograph>)
 6180	0x8098	肘 (<CJK Ideograph>)
 6181	0x809B	肛 (<CJK Ideograph>)
 6182	0x809A	肚 (<CJK Ideograph>)
 6183	0x80B2	育 (<CJK Ideograph>)
 6184	0x826F	良 (<CJK Ideograph>)
 6185	0x8292	芒 (<CJK Ideograph>)
 6186	0x828B	芋 (<CJK Ideograph>)
 6187	0x828D	芍 (<CJK Ideograph>)
 6188	0x898B	見 (<CJK Ideograph>)
 6189	0x89D2	角 (<CJK Ideograph>)
 6190	0x8A00	言 (<CJK Ideograph>)
 6191	0x8C37	谷 (<CJK Ideograph>)
 6192	0x8C46	豆 (<CJK Ideograph>)
 6193	0x8C55	豕 (<CJK Ideograph>)
 6194	0x8C9D	貝 (<CJK Ideograph>)
 6195	0x8D64	赤 (<CJK Ideograph>)
 6196	0x8D70	走 (<CJK Ideograph>)
 6197	0x8DB3	足 (<CJK Ideograph>)
 6198	0x8EAB	身 (<CJK Ideograph>)
 6199	0x8ECA	車 (<CJK Ideograph>)
 6200	0x8F9B	辛 (<CJK Ideograph>)
 6201	0x8FB0	辰 (<CJK Ideograph>)
 6202	0x8FC2	迂 (<CJK Ideograph>)
 6203	0x8FC6	迆 (<CJK Ideograph>)
 6204	0x8FC5	迅 (<CJK Ideograph>)
 6205	0x8FC4	迄 (<CJK Ideograph>)
 6206	0x5DE1	巡 (<CJK Ideograph>)
 6207	0x9091	邑 (<CJK Ideograph>)
 6208	0x90A2	邢 (<CJK Ideograph>)
 6209	0x90AA	邪 (<CJK Ideograph>)
 6210	0x90A6	邦 (<CJK Ideograph>)
 6211	0x90A3	那 (<CJK Ideograph>)
 6212	0x9149	酉 (<CJK Ideograph>)
 6213	0x91C6	釆 (<CJK Ideograph>)
 6214	0x91CC	里 (<CJK Ideograph>)
 6215	0x9632	防 (<CJK Ideograph>)
 6216	0x962E	阮 (<CJK Ideograph>)
 6217	0x9631	阱 (<CJK Ideograph>)
 6218	0x962A	阪 (<CJK Ideograph>)
 6219	0x962C	阬 (<CJK Ideograph>)
 6220	0x4E26	並 (<CJK Ideograph>)
 6221	0x4E56	乖 (<CJK Ideograph>)
 6222	0x4E73	乳 (<CJK Ideograph>)
 6223	0x4E8B	事 (<CJK Ideograph>)
 6224	0x4E9B	些 (<CJK Ideograph>)
 6225	0x4E9E	亞 (<CJK Ideograph>)
 6226	0x4EAB	享 (<CJK Ideograph>)
 6227	0x4EAC	京 (<CJK Ideograph>)
 6228	0x4F6F	佯 (<CJK Ideograph>)
 6229	0x4F9D	依 (<CJK Ideograph>)
 6230	0x4F8D	侍 (<CJK Ideograph>)
 6231	0x4F73	佳 (<CJK Ideograph>)
 6232	0x4F7F	使 (<CJK Ideograph>)
 6233	0x4F6C	佬 (<CJK Ideograph>)
 6234	0x4F9B	供 (<CJK Ideograph>)
 6235	0x4F8B	例 (<CJK Ideograph>)
 6236	0x4F86	來 (<CJK Ideograph>)
 6237	0x4F83	侃 (<CJK Ideograph>)
 6238	0x4F70	佰 (<CJK Ideograph>)
 6239	0x4F75	併 (<CJK Ideograph>)
 6240	0x4F88	侈 (<CJK Ideograph>)
 6241	0x4F69	佩 (<CJK Ideograph>)
 6242	0x4F7B	佻 (<CJK Ideograph>)
 6243	0x4F96	侖 (<CJK Ideograph>)
 6244	0x4F7E	佾 (<CJK Ideograph>)
 6245	0x4F8F	侏 (<CJK Ideograph>)
 6246	0x4F91	侑 (<CJK Ideograph>)
 6247	0x4F7A	佺 (<CJK Ideograph>)
 6248	0x5154	兔 (<CJK Ideograph>)
 6249	0x5152	兒 (<CJK Ideograph>)
 6250	0x5155	兕 (<CJK Ideograph>)
 6251	0x5169	兩 (<CJK Ideograph>)
 6252	0x5177	具 (<CJK Ideograph>)
 6253	0x5176	其 (<CJK Ideograph>)
 6254	0x5178	典 (<CJK Ideograph>)
 6255	0x51BD	冽 (<CJK Ideograph>)
 6256	0x51FD	函 (<CJK Ideograph>)
 6257	0x523B	刻 (<CJK Ideograph>)
 6258	0x5238	券 (<CJK Ideograph>)
 6259	0x5237	刷 (<CJK Ideograph>)
 6260	0x523A	刺 (<CJK Ideograph>)
 6261	0x5230	到 (<CJK Ideograph>)
 6262	0x522E	刮 (<CJK Ideograph>)
 6263	0x5236	制 (<CJK Ideograph>)
 6264	0x5241	剁 (<CJK Ideograph>)
 6265	0x52BE	劾 (<CJK Ideograph>)
 6266	0x52BB	劻 (<CJK Ideograph>)
 6267	0x5352	卒 (<CJK Ideograph>)
 6268	0x5354	協 (<CJK Ideograph>)
 6269	0x5353	卓 (<CJK Ideograph>)
 6270	0x5351	卑 (<CJK Ideograph>)
 6271	0x5366	卦 (<CJK Ideograph>)
 6272	0x5377	卷 (<CJK Ideograph>)
 6273	0x5378	卸 (<CJK Ideograph>)
 6274	0x5379	卹 (<CJK Ideograph>)
 6275	0x53D6	取 (<CJK Ideograph>)
 6276	0x53D4	叔 (<CJK Ideograph>)
 6277	0x53D7	受 (<CJK Ideograph>)
 6278	0x5473	味 (<CJK Ideograph>)
 6279	0x5475	呵 (<CJK Ideograph>)
"#

/-- encoding_tables/whatwg/index-big5.txt:5138-5294 -/
noncomputable def index40 : List Text := lines! r#" 6280	0x5496	咖 (<CJK Ideograph>)
 6281	0x5478	呸 (<CJK Ideograph>)
 6282	0x5495	咕 (<CJK Ideograph>)
 6283	0x5480	咀 (<CJK Ideograph>)
 6284	0x547B	呻 (<CJK Ideograph>)
 6285	0x5477	呷 (<CJK Ideograph>)
 6286	0x5484	咄 (<CJK Ideograph>)
 6287	0x5492	咒 (<CJK Ideograph>)
 6288	0x5486	咆 (<CJK Ideograph>)
 6289	0x547C	呼 (<CJK Ideograph>)
 6290	0x5490	咐 (<CJK Ideograph>)
 6291	0x5471	呱 (<CJK Ideograph>)
 6292	0x5476	呶 (<CJK Ideograph>)
 6293	0x548C	和 (<CJK Ideograph>)
 6294	0x549A	咚 (<CJK Ideograph>)
 6295	0x5462	呢 (<CJK Ideograph>)
 6296	0x5468	周 (<CJK Ideograph>)
 6297	0x548B	咋 (<CJK Ideograph>)
 6298	0x547D	命 (<CJK Ideograph>)
 6299	0x548E	咎 (<CJK Ideograph>)
 6300	0x56FA	固 (<CJK Ideograph>)
 6301	0x5783	垃 (<CJK Ideograph>)
 6302	0x5777	坷 (<CJK Ideograph>)
 6303	0x576A	坪 (<CJK Ideograph>)
 6304	0x5769	坩 (<CJK Ideograph>)
 6305	0x5761	坡 (<CJK Ideograph>)
 6306	0x5766	坦 (<CJK Ideograph>)
 6307	0x5764	坤 (<CJK Ideograph>)
 6308	0x577C	坼 (<CJK Ideograph>)
 6309	0x591C	夜 (<CJK Ideograph>)
 6310	0x5949	奉 (<CJK Ideograph>)
 6311	0x5947	奇 (<CJK Ideograph>)
 6312	0x5948	奈 (<CJK Ideograph>)
 6313	0x5944	奄 (<CJK Ideograph>)
 6314	0x5954	奔 (<CJK Ideograph>)
 6315	0x59BE	妾 (<CJK Ideograph>)
 6316	0x59BB	妻 (<CJK Ideograph>)
 6317	0x59D4	委 (<CJK Ideograph>)
 6318	0x59B9	妹 (<CJK Ideograph>)
 6319	0x59AE	妮 (<CJK Ideograph>)
 6320	0x59D1	姑 (<CJK Ideograph>)
 6321	0x59C6	姆 (<CJK Ideograph>)
 6322	0x59D0	姐 (<CJK Ideograph>)
 6323	0x59CD	姍 (<CJK Ideograph>)
 6324	0x59CB	始 (<CJK Ideograph>)
 6325	0x59D3	姓 (<CJK Ideograph>)
 6326	0x59CA	姊 (<CJK Ideograph>)
 6327	0x59AF	妯 (<CJK Ideograph>)
 6328	0x59B3	妳 (<CJK Ideograph>)
 6329	0x59D2	姒 (<CJK Ideograph>)
 6330	0x59C5	姅 (<CJK Ideograph>)
 6331	0x5B5F	孟 (<CJK Ideograph>)
 6332	0x5B64	孤 (<CJK Ideograph>)
 6333	0x5B63	季 (<CJK Ideograph>)
 6334	0x5B97	宗 (<CJK Ideograph>)
 6335	0x5B9A	定 (<CJK Ideograph>)
 6336	0x5B98	官 (<CJK Ideograph>)
 6337	0x5B9C	宜 (<CJK Ideograph>)
 6338	0x5B99	宙 (<CJK Ideograph>)
 6339	0x5B9B	宛 (<CJK Ideograph>)
 6340	0x5C1A	尚 (<CJK Ideograph>)
 6341	0x5C48	屈 (<CJK Ideograph>)
 6342	0x5C45	居 (<CJK Ideograph>)
 6343	0x5C46	屆 (<CJK Ideograph>)
 6344	0x5CB7	岷 (<CJK Ideograph>)
 6345	0x5CA1	岡 (<CJK Ideograph>)
 6346	0x5CB8	岸 (<CJK Ideograph>)
 6347	0x5CA9	岩 (<CJK Ideograph>)
 6348	0x5CAB	岫 (<CJK Ideograph>)
 6349	0x5CB1	岱 (<CJK Ideograph>)
 6350	0x5CB3	岳 (<CJK Ideograph>)
 6351	0x5E18	帘 (<CJK Ideograph>)
 6352	0x5E1A	帚 (<CJK Ideograph>)
 6353	0x5E16	帖 (<CJK Ideograph>)
 6354	0x5E15	帕 (<CJK Ideograph>)
 6355	0x5E1B	帛 (<CJK Ideograph>)
 6356	0x5E11	帑 (<CJK Ideograph>)
 6357	0x5E78	幸 (<CJK Ideograph>)
 6358	0x5E9A	庚 (<CJK Ideograph>)
 6359	0x5E97	店 (<CJK Ideograph>)
 6360	0x5E9C	府 (<CJK Ideograph>)
 6361	0x5E95	底 (<CJK Ideograph>)
 6362	0x5E96	庖 (<CJK Ideograph>)
 6363	0x5EF6	延 (<CJK Ideograph>)
 6364	0x5F26	弦 (<CJK Ideograph>)
 6365	0x5F27	弧 (<CJK Ideograph>)
 6366	0x5F29	弩 (<CJK Ideograph>)
 6367	0x5F80	往 (<CJK Ideograph>)
 6368	0x5F81	征 (<CJK Ideograph>)
 6369	0x5F7F	彿 (<CJK Ideograph>)
 6370	0x5F7C	彼 (<CJK Ideograph>)
 6371	0x5FDD	忝 (<CJK Ideograph>)
 6372	0x5FE0	忠 (<CJK Ideograph>)
 6373	0x5FFD	忽 (<CJK Ideograph>)
 6374	0x5FF5	念 (<CJK Ideograph>)
 6375	0x5FFF	忿 (<CJK Ideograph>)
 6376	0x600F	怏 (<CJK Ideograph>)
 6377	0x6014	怔 (<CJK Ideograph>)
 6378	0x602F	怯 (<CJK Ideograph>)
 6379	0x6035	怵 (<CJK Ideograph>)
 6380	0x6016	怖 (<CJK Ideograph>)
 6381	0x602A	怪 (<CJK Ideograph>)
 6382	0x6015	怕 (<CJK Ideograph>)
 6383	0x6021	怡 (<CJK Ideograph>)
 6384	0x6027	性 (<CJK Ideograph>)
 6385	0x6029	怩 (<CJK Ideograph>)
 6386	0x602B	怫 (<CJK Ideograph>)
 6387	0x601B	怛 (<CJK Ideograph>)
 6388	0x6216	或 (<CJK Ideograph>)
 6389	0x6215	戕 (<CJK Ideograph>)
 6390	0x623F	房 (<CJK Ideograph>)
 6391	0x623E	戾 (<CJK Ideograph>)
 6392	0x6240	所 (<CJK Ideograph>)
 6393	0x627F	承 (<CJK Ideograph>)
 6394	0x62C9	拉 (<CJK Ideograph>)
 6395	0x62CC	拌 (<CJK Ideograph>)
 6396	0x62C4	拄 (<CJK Ideograph>)
 6397	0x62BF	抿 (<CJK Ideograph>)
 6398	0x62C2	拂 (<CJK Ideograph>)
 6399	0x62B9	抹 (<CJK Ideograph>)
 6400	0x62D2	拒 (<CJK Ideograph>)
 6401	0x62DB	招 (<CJK Ideograph>)
 6402	0x62AB	披 (<CJK Ideograph>)
 6403	0x62D3	拓 (<CJK Ideograph>)
 6404	0x62D4	拔 (<CJK Ideograph>)
 6405	0x62CB	拋 (<CJK Ideograph>)
 6406	0x62C8	拈 (<CJK Ideograph>)
 6407	0x62A8	抨 (<CJK Ideograph>)
 6408	0x62BD	抽 (<CJK Ideograph>)
 6409	0x62BC	押 (<CJK Ideograph>)
 6410	0x62D0	拐 (<CJK Ideograph>)
 6411	0x62D9	拙 (<CJK Ideograph>)
 6412	0x62C7	拇 (<CJK Ideograph>)
 6413	0x62CD	拍 (<CJK Ideograph>)
 6414	0x62B5	抵 (<CJK Ideograph>)
 6415	0x62DA	拚 (<CJK Ideograph>)
 6416	0x62B1	抱 (<CJK Ideograph>)
 6417	0x62D8	拘 (<CJK Ideograph>)
 6418	0x62D6	拖 (<CJK Ideograph>)
 6419	0x62D7	拗 (<CJK Ideograph>)
 6420	0x62C6	拆 (<CJK Ideograph>)
 6421	0x62AC	抬 (<CJK Ideograph>)
 6422	0x62CE	拎 (<CJK Ideograph>)
 6423	0x653E	放 (<CJK Ideograph>)
 6424	0x65A7	斧 (<CJK Ideograph>)
 6425	0x65BC	於 (<CJK Ideograph>)
 6426	0x65FA	旺 (<CJK Ideograph>)
 6427	0x6614	昔 (<CJK Ideograph>)
 6428	0x6613	易 (<CJK Ideograph>)
 6429	0x660C	昌 (<CJK Ideograph>)
 6430	0x6606	昆 (<CJK Ideograph>)
 6431	0x6602	昂 (<CJK Ideograph>)
 6432	0x660E	明 (<CJK Ideograph>)
 6433	0x6600	昀 (<CJK Ideograph>)
 6434	0x660F	昏 (<CJK Ideograph>)
 6435	0x6615	昕 (<CJK Ideograph>)
 6436	0x660A	昊 (<CJK Ideograph>)
"#

/-- encoding_tables/whatwg/index-big5.txt:5295-5451 -/
noncomputable def index41 : List Text := lines! r#" 6437	0x6607	昇 (<CJK Ideograph>)
 6438	0x670D	服 (<CJK Ideograph>)
 6439	0x670B	朋 (<CJK Ideograph>)
 6440	0x676D	杭 (<CJK Ideograph>)
 6441	0x678B	枋 (<CJK Ideograph>)
 6442	0x6795	枕 (<CJK Ideograph>)
 6443	0x6771	東 (<CJK Ideograph>)
 6444	0x679C	果 (<CJK Ideograph>)
 6445	0x6773	杳 (<CJK Ideograph>)
 6446	0x6777	杷 (<CJK Ideograph>)
 6447	0x6787	枇 (<CJK Ideograph>)
 6448	0x679D	枝 (<CJK Ideograph>)
 6449	0x6797	林 (<CJK Ideograph>)
 6450	0x676F	杯 (<CJK Ideograph>)
 6451	0x6770	杰 (<CJK Ideograph>)
 6452	0x677F	板 (<CJK Ideograph>)
 6453	0x6789	枉 (<CJK Ideograph>)
 6454	0x677E	松 (<CJK Ideograph>)
 6455	0x6790	析 (<CJK Ideograph>)
 6456	0x6775	杵 (<CJK Ideograph>)
 6457	0x679A	枚 (<CJK Ideograph>)
 6458	0x6793	枓 (<CJK Ideograph>)
 6459	0x677C	杼 (<CJK Ideograph>)
 6460	0x676A	杪 (<CJK Ideograph>)
 6461	0x6772	杲 (<CJK Ideograph>)
 6462	0x6B23	欣 (<CJK Ideograph>)
 6463	0x6B66	武 (<CJK Ideograph>)
 6464	0x6B67	歧 (<CJK Ideograph>)
 6465	0x6B7F	歿 (<CJK Ideograph>)
 6466	0x6C13	氓 (<CJK Ideograph>)
 6467	0x6C1B	氛 (<CJK Ideograph>)
 6468	0x6CE3	泣 (<CJK Ideograph>)
 6469	0x6CE8	注 (<CJK Ideograph>)
 6470	0x6CF3	泳 (<CJK Ideograph>)
 6471	0x6CB1	沱 (<CJK Ideograph>)
 6472	0x6CCC	泌 (<CJK Ideograph>)
 6473	0x6CE5	泥 (<CJK Ideograph>)
 6474	0x6CB3	河 (<CJK Ideograph>)
 6475	0x6CBD	沽 (<CJK Ideograph>)
 6476	0x6CBE	沾 (<CJK Ideograph>)
 6477	0x6CBC	沼 (<CJK Ideograph>)
 6478	0x6CE2	波 (<CJK Ideograph>)
 6479	0x6CAB	沫 (<CJK Ideograph>)
 6480	0x6CD5	法 (<CJK Ideograph>)
 6481	0x6CD3	泓 (<CJK Ideograph>)
 6482	0x6CB8	沸 (<CJK Ideograph>)
 6483	0x6CC4	泄 (<CJK Ideograph>)
 6484	0x6CB9	油 (<CJK Ideograph>)
 6485	0x6CC1	況 (<CJK Ideograph>)
 6486	0x6CAE	沮 (<CJK Ideograph>)
 6487	0x6CD7	泗 (<CJK Ideograph>)
 6488	0x6CC5	泅 (<CJK Ideograph>)
 6489	0x6CF1	泱 (<CJK Ideograph>)
 6490	0x6CBF	沿 (<CJK Ideograph>)
 6491	0x6CBB	治 (<CJK Ideograph>)
 6492	0x6CE1	泡 (<CJK Ideograph>)
 6493	0x6CDB	泛 (<CJK Ideograph>)
 6494	0x6CCA	泊 (<CJK Ideograph>)
 6495	0x6CAC	沬 (<CJK Ideograph>)
 6496	0x6CEF	泯 (<CJK Ideograph>)
 6497	0x6CDC	泜 (<CJK Ideograph>)
 6498	0x6CD6	泖 (<CJK Ideograph>)
 6499	0x6CE0	泠 (<CJK Ideograph>)
 6500	0x7095	炕 (<CJK Ideograph>)
 6501	0x708E	炎 (<CJK Ideograph>)
 6502	0x7092	炒 (<CJK Ideograph>)
 6503	0x708A	炊 (<CJK Ideograph>)
 6504	0x7099	炙 (<CJK Ideograph>)
 6505	0x722C	爬 (<CJK Ideograph>)
 6506	0x722D	爭 (<CJK Ideograph>)
 6507	0x7238	爸 (<CJK Ideograph>)
 6508	0x7248	版 (<CJK Ideograph>)
 6509	0x7267	牧 (<CJK Ideograph>)
 6510	0x7269	物 (<CJK Ideograph>)
 6511	0x72C0	狀 (<CJK Ideograph>)
 6512	0x72CE	狎 (<CJK Ideograph>)
 6513	0x72D9	狙 (<CJK Ideograph>)
 6514	0x72D7	狗 (<CJK Ideograph>)
 6515	0x72D0	狐 (<CJK Ideograph>)
 6516	0x73A9	玩 (<CJK Ideograph>)
 6517	0x73A8	玨 (<CJK Ideograph>)
 6518	0x739F	玟 (<CJK Ideograph>)
 6519	0x73AB	玫 (<CJK Ideograph>)
 6520	0x73A5	玥 (<CJK Ideograph>)
 6521	0x753D	甽 (<CJK Ideograph>)
 6522	0x759D	疝 (<CJK Ideograph>)
 6523	0x7599	疙 (<CJK Ideograph>)
 6524	0x759A	疚 (<CJK Ideograph>)
 6525	0x7684	的 (<CJK Ideograph>)
 6526	0x76C2	盂 (<CJK Ideograph>)
 6527	0x76F2	盲 (<CJK Ideograph>)
 6528	0x76F4	直 (<CJK Ideograph>)
 6529	0x77E5	知 (<CJK Ideograph>)
 6530	0x77FD	矽 (<CJK Ideograph>)
 6531	0x793E	社 (<CJK Ideograph>)
 6532	0x7940	祀 (<CJK Ideograph>)
 6533	0x7941	祁 (<CJK Ideograph>)
 6534	0x79C9	秉 (<CJK Ideograph>)
 6535	0x79C8	秈 (<CJK Ideograph>)
 6536	0x7A7A	空 (<CJK Ideograph>)
 6537	0x7A79	穹 (<CJK Ideograph>)
 6538	0x7AFA	竺 (<CJK Ideograph>)
 6539	0x7CFE	糾 (<CJK Ideograph>)
 6540	0x7F54	罔 (<CJK Ideograph>)
 6541	0x7F8C	羌 (<CJK Ideograph>)
 6542	0x7F8B	羋 (<CJK Ideograph>)
 6543	0x8005	者 (<CJK Ideograph>)
 6544	0x80BA	肺 (<CJK Ideograph>)
 6545	0x80A5	肥 (<CJK Ideograph>)
 6546	0x80A2	肢 (<CJK Ideograph>)
 6547	0x80B1	肱 (<CJK Ideograph>)
 6548	0x80A1	股 (<CJK Ideograph>)
 6549	0x80AB	肫 (<CJK Ideograph>)
 6550	0x80A9	肩 (<CJK Ideograph>)
 6551	0x80B4	肴 (<CJK Ideograph>)
 6552	0x80AA	肪 (<CJK Ideograph>)
 6553	0x80AF	肯 (<CJK Ideograph>)
 6554	0x81E5	臥 (<CJK Ideograph>)
 6555	0x81FE	臾 (<CJK Ideograph>)
 6556	0x820D	舍 (<CJK Ideograph>)
 6557	0x82B3	芳 (<CJK Ideograph>)
 6558	0x829D	芝 (<CJK Ideograph>)
 6559	0x8299	芙 (<CJK Ideograph>)
 6560	0x82AD	芭 (<CJK Ideograph>)
 6561	0x82BD	芽 (<CJK Ideograph>)
 6562	0x829F	芟 (<CJK Ideograph>)
 6563	0x82B9	芹 (<CJK Ideograph>)
 6564	0x82B1	花 (<CJK Ideograph>)
 6565	0x82AC	芬 (<CJK Ideograph>)
 6566	0x82A5	芥 (<CJK Ideograph>)
 6567	0x82AF	芯 (<CJK Ideograph>)
 6568	0x82B8	芸 (<CJK Ideograph>)
 6569	0x82A3	芣 (<CJK Ideograph>)
 6570	0x82B0	芰 (<CJK Ideograph>)
 6571	0x82BE	芾 (<CJK Ideograph>)
 6572	0x82B7	芷 (<CJK Ideograph>)
 6573	0x864E	虎 (<CJK Ideograph>)
 6574	0x8671	虱 (<CJK Ideograph>)
 6575	0x521D	初 (<CJK Ideograph>)
 6576	0x8868	表 (<CJK Ideograph>)
 6577	0x8ECB	軋 (<CJK Ideograph>)
 6578	0x8FCE	迎 (<CJK Ideograph>)
 6579	0x8FD4	返 (<CJK Ideograph>)
 6580	0x8FD1	近 (<CJK Ideograph>)
 6581	0x90B5	邵 (<CJK Ideograph>)
 6582	0x90B8	邸 (<CJK Ideograph>)
 6583	0x90B1	邱 (<CJK Ideograph>)
 6584	0x90B6	邶 (<CJK Ideograph>)
 6585	0x91C7	采 (<CJK Ideograph>)
 6586	0x91D1	金 (<CJK Ideograph>)
 6587	0x9577	長 (<CJK Ideograph>)
 6588	0x9580	門 (<CJK Ideograph>)
 6589	0x961C	阜 (<CJK Ideograph>)
 6590	0x9640	陀 (<CJK Ideograph>)
 6591	0x963F	阿 (<CJK Ideograph>)
 6592	0x963B	阻 (<CJK Ideograph>)
 6593	0x9644	附 (<CJK Ideograph>)
"#

/-- encoding_tables/whatwg/index-big5.txt:5452-5608 -/
noncomputable def index42 : List Text := lines! r#" 6594	0x9642	陂 (<CJK Ideograph>)
 6595	0x96B9	隹 (<CJK Ideograph>)
 6596	0x96E8	雨 (<CJK Ideograph>)
 6597	0x9752	青 (<CJK Ideograph>)
 6598	0x975E	非 (<CJK Ideograph>)
 6599	0x4E9F	亟 (<CJK Ideograph>)
 6600	0x4EAD	亭 (<CJK Ideograph>)
 6601	0x4EAE	亮 (<CJK Ideograph>)
 6602	0x4FE1	信 (<CJK Ideograph>)
 6603	0x4FB5	侵 (<CJK Ideograph>)
 6604	0x4FAF	侯 (<CJK Ideograph>)
 6605	0x4FBF	便 (<CJK Ideograph>)
 6606	0x4FE0	俠 (<CJK Ideograph>)
 6607	0x4FD1	俑 (<CJK Ideograph>)
 6608	0x4FCF	俏 (<CJK Ideograph>)
 6609	0x4FDD	保 (<CJK Ideograph>)
 6610	0x4FC3	促 (<CJK Ideograph>)
 6611	0x4FB6	侶 (<CJK Ideograph>)
 6612	0x4FD8	俘 (<CJK Ideograph>)
 6613	0x4FDF	俟 (<CJK Ideograph>)
 6614	0x4FCA	俊 (<CJK Ideograph>)
 6615	0x4FD7	俗 (<CJK Ideograph>)
 6616	0x4FAE	侮 (<CJK Ideograph>)
 6617	0x4FD0	俐 (<CJK Ideograph>)
 6618	0x4FC4	俄 (<CJK Ideograph>)
 6619	0x4FC2	係 (<CJK Ideograph>)
 6620	0x4FDA	俚 (<CJK Ideograph>)
 6621	0x4FCE	俎 (<CJK Ideograph>)
 6622	0x4FDE	俞 (<CJK Ideograph>)
 6623	0x4FB7	侷 (<CJK Ideograph>)
 6624	0x5157	兗 (<CJK Ideograph>)
 6625	0x5192	冒 (<CJK Ideograph>)
 6626	0x5191	冑 (<CJK Ideograph>)
 6627	0x51A0	冠 (<CJK Ideograph>)
 6628	0x524E	剎 (<CJK Ideograph>)
 6629	0x5243	剃 (<CJK Ideograph>)
 6630	0x524A	削 (<CJK Ideograph>)
 6631	0x524D	前 (<CJK Ideograph>)
 6632	0x524C	剌 (<CJK Ideograph>)
 6633	0x524B	剋 (<CJK Ideograph>)
 6634	0x5247	則 (<CJK Ideograph>)
 6635	0x52C7	勇 (<CJK Ideograph>)
 6636	0x52C9	勉 (<CJK Ideograph>)
 6637	0x52C3	勃 (<CJK Ideograph>)
 6638	0x52C1	勁 (<CJK Ideograph>)
 6639	0x530D	匍 (<CJK Ideograph>)
 6640	0x5357	南 (<CJK Ideograph>)
 6641	0x537B	卻 (<CJK Ideograph>)
 6642	0x539A	厚 (<CJK Ideograph>)
 6643	0x53DB	叛 (<CJK Ideograph>)
 6644	0x54AC	咬 (<CJK Ideograph>)
 6645	0x54C0	哀 (<CJK Ideograph>)
 6646	0x54A8	咨 (<CJK Ideograph>)
 6647	0x54CE	哎 (<CJK Ideograph>)
 6648	0x54C9	哉 (<CJK Ideograph>)
 6649	0x54B8	咸 (<CJK Ideograph>)
 6650	0x54A6	咦 (<CJK Ideograph>)
 6651	0x54B3	咳 (<CJK Ideograph>)
 6652	0x54C7	哇 (<CJK Ideograph>)
 6653	0x54C2	哂 (<CJK Ideograph>)
 6654	0x54BD	咽 (<CJK Ideograph>)
 6655	0x54AA	咪 (<CJK Ideograph>)
 6656	0x54C1	品 (<CJK Ideograph>)
 6657	0x54C4	哄 (<CJK Ideograph>)
 6658	0x54C8	哈 (<CJK Ideograph>)
 6659	0x54AF	咯 (<CJK Ideograph>)
 6660	0x54AB	咫 (<CJK Ideograph>)
 6661	0x54B1	咱 (<CJK Ideograph>)
 6662	0x54BB	咻 (<CJK Ideograph>)
 6663	0x54A9	咩 (<CJK Ideograph>)
 6664	0x54A7	咧 (<CJK Ideograph>)
 6665	0x54BF	咿 (<CJK Ideograph>)
 6666	0x56FF	囿 (<CJK Ideograph>)
 6667	0x5782	垂 (<CJK Ideograph>)
 6668	0x578B	型 (<CJK Ideograph>)
 6669	0x57A0	垠 (<CJK Ideograph>)
 6670	0x57A3	垣 (<CJK Ideograph>)
 6671	0x57A2	垢 (<CJK Ideograph>)
 6672	0x57CE	城 (<CJK Ideograph>)
 6673	0x57AE	垮 (<CJK Ideograph>)
 6674	0x5793	垓 (<CJK Ideograph>)
 6675	0x5955	奕 (<CJK Ideograph>)
 6676	0x5951	契 (<CJK Ideograph>)
 6677	0x594F	奏 (<CJK Ideograph>)
 6678	0x594E	奎 (<CJK Ideograph>)
 6679	0x5950	奐 (<CJK Ideograph>)
 6680	0x59DC	姜 (<CJK Ideograph>)
 6681	0x59D8	姘 (<CJK Ideograph>)
 6682	0x59FF	姿 (<CJK Ideograph>)
 6683	0x59E3	姣 (<CJK Ideograph>)
 6684	0x59E8	姨 (<CJK Ideograph>)
 6685	0x5A03	娃 (<CJK Ideograph>)
 6686	0x59E5	姥 (<CJK Ideograph>)
 6687	0x59EA	姪 (<CJK Ideograph>)
 6688	0x59DA	姚 (<CJK Ideograph>)
 6689	0x59E6	姦 (<CJK Ideograph>)
 6690	0x5A01	威 (<CJK Ideograph>)
 6691	0x59FB	姻 (<CJK Ideograph>)
 6692	0x5B69	孩 (<CJK Ideograph>)
 6693	0x5BA3	宣 (<CJK Ideograph>)
 6694	0x5BA6	宦 (<CJK Ideograph>)
 6695	0x5BA4	室 (<CJK Ideograph>)
 6696	0x5BA2	客 (<CJK Ideograph>)
 6697	0x5BA5	宥 (<CJK Ideograph>)
 6698	0x5C01	封 (<CJK Ideograph>)
 6699	0x5C4E	屎 (<CJK Ideograph>)
 6700	0x5C4F	屏 (<CJK Ideograph>)
 6701	0x5C4D	屍 (<CJK Ideograph>)
 6702	0x5C4B	屋 (<CJK Ideograph>)
 6703	0x5CD9	峙 (<CJK Ideograph>)
 6704	0x5CD2	峒 (<CJK Ideograph>)
 6705	0x5DF7	巷 (<CJK Ideograph>)
 6706	0x5E1D	帝 (<CJK Ideograph>)
 6707	0x5E25	帥 (<CJK Ideograph>)
 6708	0x5E1F	帟 (<CJK Ideograph>)
 6709	0x5E7D	幽 (<CJK Ideograph>)
 6710	0x5EA0	庠 (<CJK Ideograph>)
 6711	0x5EA6	度 (<CJK Ideograph>)
 6712	0x5EFA	建 (<CJK Ideograph>)
 6713	0x5F08	弈 (<CJK Ideograph>)
 6714	0x5F2D	弭 (<CJK Ideograph>)
 6715	0x5F65	彥 (<CJK Ideograph>)
 6716	0x5F88	很 (<CJK Ideograph>)
 6717	0x5F85	待 (<CJK Ideograph>)
 6718	0x5F8A	徊 (<CJK Ideograph>)
 6719	0x5F8B	律 (<CJK Ideograph>)
 6720	0x5F87	徇 (<CJK Ideograph>)
 6721	0x5F8C	後 (<CJK Ideograph>)
 6722	0x5F89	徉 (<CJK Ideograph>)
 6723	0x6012	怒 (<CJK Ideograph>)
 6724	0x601D	思 (<CJK Ideograph>)
 6725	0x6020	怠 (<CJK Ideograph>)
 6726	0x6025	急 (<CJK Ideograph>)
 6727	0x600E	怎 (<CJK Ideograph>)
 6728	0x6028	怨 (<CJK Ideograph>)
 6729	0x604D	恍 (<CJK Ideograph>)
 6730	0x6070	恰 (<CJK Ideograph>)
 6731	0x6068	恨 (<CJK Ideograph>)
 6732	0x6062	恢 (<CJK Ideograph>)
 6733	0x6046	恆 (<CJK Ideograph>)
 6734	0x6043	恃 (<CJK Ideograph>)
 6735	0x606C	恬 (<CJK Ideograph>)
 6736	0x606B	恫 (<CJK Ideograph>)
 6737	0x606A	恪 (<CJK Ideograph>)
 6738	0x6064	恤 (<CJK Ideograph>)
 6739	0x6241	扁 (<CJK Ideograph>)
 6740	0x62DC	拜 (<CJK Ideograph>)
 6741	0x6316	挖 (<CJK Ideograph>)
 6742	0x6309	按 (<CJK Ideograph>)
 6743	0x62FC	拼 (<CJK Ideograph>)
 6744	0x62ED	拭 (<CJK Ideograph>)
 6745	0x6301	持 (<CJK Ideograph>)
 6746	0x62EE	拮 (<CJK Ideograph>)
 6747	0x62FD	拽 (<CJK Ideograph>)
 6748	0x6307	指 (<CJK Ideograph>)
 6749	0x62F1	拱 (<CJK Ideograph>)
 6750	0x62F7	拷 (<CJK Ideograph>)
"#

/-- encoding_tables/whatwg/index-big5.txt:5609-5765 -/
noncomputable def index43 : List Text := lines! r#" 6751	0x62EF	拯 (<CJK Ideograph>)
 6752	0x62EC	括 (<CJK Ideograph>)
 6753	0x62FE	拾 (<CJK Ideograph>)
 6754	0x62F4	拴 (<CJK Ideograph>)
 6755	0x6311	挑 (<CJK Ideograph>)
 6756	0x6302	挂 (<CJK Ideograph>)
 6757	0x653F	政 (<CJK Ideograph>)
 6758	0x6545	故 (<CJK Ideograph>)
 6759	0x65AB	斫 (<CJK Ideograph>)
 6760	0x65BD	施 (<CJK Ideograph>)
 6761	0x65E2	既 (<CJK Ideograph>)
 6762	0x6625	春 (<CJK Ideograph>)
 6763	0x662D	昭 (<CJK Ideograph>)
 6764	0x6620	映 (<CJK Ideograph>)
 6765	0x6627	昧 (<CJK Ideograph>)
 6766	0x662F	是 (<CJK Ideograph>)
 6767	0x661F	星 (<CJK Ideograph>)
 6768	0x6628	昨 (<CJK Ideograph>)
 6769	0x6631	昱 (<CJK Ideograph>)
 6770	0x6624	昤 (<CJK Ideograph>)
 6771	0x66F7	曷 (<CJK Ideograph>)
 6772	0x67FF	柿 (<CJK Ideograph>)
 6773	0x67D3	染 (<CJK Ideograph>)
 6774	0x67F1	柱 (<CJK Ideograph>)
 6775	0x67D4	柔 (<CJK Ideograph>)
 6776	0x67D0	某 (<CJK Ideograph>)
 6777	0x67EC	柬 (<CJK Ideograph>)
 6778	0x67B6	架 (<CJK Ideograph>)
 6779	0x67AF	枯 (<CJK Ideograph>)
 6780	0x67F5	柵 (<CJK Ideograph>)
 6781	0x67E9	柩 (<CJK Ideograph>)
 6782	0x67EF	柯 (<CJK Ideograph>)
 6783	0x67C4	柄 (<CJK Ideograph>)
 6784	0x67D1	柑 (<CJK Ideograph>)
 6785	0x67B4	枴 (<CJK Ideograph>)
 6786	0x67DA	柚 (<CJK Ideograph>)
 6787	0x67E5	查 (<CJK Ideograph>)
 6788	0x67B8	枸 (<CJK Ideograph>)
 6789	0x67CF	柏 (<CJK Ideograph>)
 6790	0x67DE	柞 (<CJK Ideograph>)
 6791	0x67F3	柳 (<CJK Ideograph>)
 6792	0x67B0	枰 (<CJK Ideograph>)
 6793	0x67D9	柙 (<CJK Ideograph>)
 6794	0x67E2	柢 (<CJK Ideograph>)
 6795	0x67DD	柝 (<CJK Ideograph>)
 6796	0x67D2	柒 (<CJK Ideograph>)
 6797	0x6B6A	歪 (<CJK Ideograph>)
 6798	0x6B83	殃 (<CJK Ideograph>)
 6799	0x6B86	殆 (<CJK Ideograph>)
 6800	0x6BB5	段 (<CJK Ideograph>)
 6801	0x6BD2	毒 (<CJK Ideograph>)
 6802	0x6BD7	毗 (<CJK Ideograph>)
 6803	0x6C1F	氟 (<CJK Ideograph>)
 6804	0x6CC9	泉 (<CJK Ideograph>)
 6805	0x6D0B	洋 (<CJK Ideograph>)
 6806	0x6D32	洲 (<CJK Ideograph>)
 6807	0x6D2A	洪 (<CJK Ideograph>)
 6808	0x6D41	流 (<CJK Ideograph>)
 6809	0x6D25	津 (<CJK Ideograph>)
 6810	0x6D0C	洌 (<CJK Ideograph>)
 6811	0x6D31	洱 (<CJK Ideograph>)
 6812	0x6D1E	洞 (<CJK Ideograph>)
 6813	0x6D17	洗 (<CJK Ideograph>)
 6814	0x6D3B	活 (<CJK Ideograph>)
 6815	0x6D3D	洽 (<CJK Ideograph>)
 6816	0x6D3E	派 (<CJK Ideograph>)
 6817	0x6D36	洶 (<CJK Ideograph>)
 6818	0x6D1B	洛 (<CJK Ideograph>)
 6819	0x6CF5	泵 (<CJK Ideograph>)
 6820	0x6D39	洹 (<CJK Ideograph>)
 6821	0x6D27	洧 (<CJK Ideograph>)
 6822	0x6D38	洸 (<CJK Ideograph>)
 6823	0x6D29	洩 (<CJK Ideograph>)
 6824	0x6D2E	洮 (<CJK Ideograph>)
 6825	0x6D35	洵 (<CJK Ideograph>)
 6826	0x6D0E	洎 (<CJK Ideograph>)
 6827	0x6D2B	洫 (<CJK Ideograph>)
 6828	0x70AB	炫 (<CJK Ideograph>)
 6829	0x70BA	為 (<CJK Ideograph>)
 6830	0x70B3	炳 (<CJK Ideograph>)
 6831	0x70AC	炬 (<CJK Ideograph>)
 6832	0x70AF	炯 (<CJK Ideograph>)
 6833	0x70AD	炭 (<CJK Ideograph>)
 6834	0x70B8	炸 (<CJK Ideograph>)
 6835	0x70AE	炮 (<CJK Ideograph>)
 6836	0x70A4	炤 (<CJK Ideograph>)
 6837	0x7230	爰 (<CJK Ideograph>)
 6838	0x7272	牲 (<CJK Ideograph>)
 6839	0x726F	牯 (<CJK Ideograph>)
 6840	0x7274	牴 (<CJK Ideograph>)
 6841	0x72E9	狩 (<CJK Ideograph>)
 6842	0x72E0	狠 (<CJK Ideograph>)
 6843	0x72E1	狡 (<CJK Ideograph>)
 6844	0x73B7	玷 (<CJK Ideograph>)
 6845	0x73CA	珊 (<CJK Ideograph>)
 6846	0x73BB	玻 (<CJK Ideograph>)
 6847	0x73B2	玲 (<CJK Ideograph>)
 6848	0x73CD	珍 (<CJK Ideograph>)
 6849	0x73C0	珀 (<CJK Ideograph>)
 6850	0x73B3	玳 (<CJK Ideograph>)
 6851	0x751A	甚 (<CJK Ideograph>)
 6852	0x752D	甭 (<CJK Ideograph>)
 6853	0x754F	畏 (<CJK Ideograph>)
 6854	0x754C	界 (<CJK Ideograph>)
 6855	0x754E	畎 (<CJK Ideograph>)
 6856	0x754B	畋 (<CJK Ideograph>)
 6857	0x75AB	疫 (<CJK Ideograph>)
 6858	0x75A4	疤 (<CJK Ideograph>)
 6859	0x75A5	疥 (<CJK Ideograph>)
 6860	0x75A2	疢 (<CJK Ideograph>)
 6861	0x75A3	疣 (<CJK Ideograph>)
 6862	0x7678	癸 (<CJK Ideograph>)
 6863	0x7686	皆 (<CJK Ideograph>)
 6864	0x7687	皇 (<CJK Ideograph>)
 6865	0x7688	皈 (<CJK Ideograph>)
 6866	0x76C8	盈 (<CJK Ideograph>)
 6867	0x76C6	盆 (<CJK Ideograph>)
 6868	0x76C3	盃 (<CJK Ideograph>)
 6869	0x76C5	盅 (<CJK Ideograph>)
 6870	0x7701	省 (<CJK Ideograph>)
 6871	0x76F9	盹 (<CJK Ideograph>)
 6872	0x76F8	相 (<CJK Ideograph>)
 6873	0x7709	眉 (<CJK Ideograph>)
 6874	0x770B	看 (<CJK Ideograph>)
 6875	0x76FE	盾 (<CJK Ideograph>)
 6876	0x76FC	盼 (<CJK Ideograph>)
 6877	0x7707	眇 (<CJK Ideograph>)
 6878	0x77DC	矜 (<CJK Ideograph>)
 6879	0x7802	砂 (<CJK Ideograph>)
 6880	0x7814	研 (<CJK Ideograph>)
 6881	0x780C	砌 (<CJK Ideograph>)
 6882	0x780D	砍 (<CJK Ideograph>)
 6883	0x7946	祆 (<CJK Ideograph>)
 6884	0x7949	祉 (<CJK Ideograph>)
 6885	0x7948	祈 (<CJK Ideograph>)
 6886	0x7947	祇 (<CJK Ideograph>)
 6887	0x79B9	禹 (<CJK Ideograph>)
 6888	0x79BA	禺 (<CJK Ideograph>)
 6889	0x79D1	科 (<CJK Ideograph>)
 6890	0x79D2	秒 (<CJK Ideograph>)
 6891	0x79CB	秋 (<CJK Ideograph>)
 6892	0x7A7F	穿 (<CJK Ideograph>)
 6893	0x7A81	突 (<CJK Ideograph>)
 6894	0x7AFF	竿 (<CJK Ideograph>)
 6895	0x7AFD	竽 (<CJK Ideograph>)
 6896	0x7C7D	籽 (<CJK Ideograph>)
 6897	0x7D02	紂 (<CJK Ideograph>)
 6898	0x7D05	紅 (<CJK Ideograph>)
 6899	0x7D00	紀 (<CJK Ideograph>)
 6900	0x7D09	紉 (<CJK Ideograph>)
 6901	0x7D07	紇 (<CJK Ideograph>)
 6902	0x7D04	約 (<CJK Ideograph>)
 6903	0x7D06	紆 (<CJK Ideograph>)
 6904	0x7F38	缸 (<CJK Ideograph>)
 6905	0x7F8E	美 (<CJK Ideograph>)
 6906	0x7FBF	羿 (<CJK Ideograph>)
 6907	0x8004	耄 (<CJK Ideograph>)
"#

/-- encoding_tables/whatwg/index-big5.txt:5766-5922 -/
noncomputable def index44 : List Text := lines! r#" 6908	0x8010	耐 (<CJK Ideograph>)
 6909	0x800D	耍 (<CJK Ideograph>)
 6910	0x8011	耑 (<CJK Ideograph>)
 6911	0x8036	耶 (<CJK Ideograph>)
 6912	0x80D6	胖 (<CJK Ideograph>)
 6913	0x80E5	胥 (<CJK Ideograph>)
 6914	0x80DA	胚 (<CJK Ideograph>)
 6915	0x80C3	胃 (<CJK Ideograph>)
 6916	0x80C4	胄 (<CJK Ideograph>)
 6917	0x80CC	背 (<CJK Ideograph>)
 6918	0x80E1	胡 (<CJK Ideograph>)
 6919	0x80DB	胛 (<CJK Ideograph>)
 6920	0x80CE	胎 (<CJK Ideograph>)
 6921	0x80DE	胞 (<CJK Ideograph>)
 6922	0x80E4	胤 (<CJK Ideograph>)
 6923	0x80DD	胝 (<CJK Ideograph>)
 6924	0x81F4	致 (<CJK Ideograph>)
 6925	0x8222	舢 (<CJK Ideograph>)
 6926	0x82E7	苧 (<CJK Ideograph>)
 6927	0x8303	范 (<CJK Ideograph>)
 6928	0x8305	茅 (<CJK Ideograph>)
 6929	0x82E3	苣 (<CJK Ideograph>)
 6930	0x82DB	苛 (<CJK Ideograph>)
 6931	0x82E6	苦 (<CJK Ideograph>)
 6932	0x8304	茄 (<CJK Ideograph>)
 6933	0x82E5	若 (<CJK Ideograph>)
 6934	0x8302	茂 (<CJK Ideograph>)
 6935	0x8309	茉 (<CJK Ideograph>)
 6936	0x82D2	苒 (<CJK Ideograph>)
 6937	0x82D7	苗 (<CJK Ideograph>)
 6938	0x82F1	英 (<CJK Ideograph>)
 6939	0x8301	茁 (<CJK Ideograph>)
 6940	0x82DC	苜 (<CJK Ideograph>)
 6941	0x82D4	苔 (<CJK Ideograph>)
 6942	0x82D1	苑 (<CJK Ideograph>)
 6943	0x82DE	苞 (<CJK Ideograph>)
 6944	0x82D3	苓 (<CJK Ideograph>)
 6945	0x82DF	苟 (<CJK Ideograph>)
 6946	0x82EF	苯 (<CJK Ideograph>)
 6947	0x8306	茆 (<CJK Ideograph>)
 6948	0x8650	虐 (<CJK Ideograph>)
 6949	0x8679	虹 (<CJK Ideograph>)
 6950	0x867B	虻 (<CJK Ideograph>)
 6951	0x867A	虺 (<CJK Ideograph>)
 6952	0x884D	衍 (<CJK Ideograph>)
 6953	0x886B	衫 (<CJK Ideograph>)
 6954	0x8981	要 (<CJK Ideograph>)
 6955	0x89D4	觔 (<CJK Ideograph>)
 6956	0x8A08	計 (<CJK Ideograph>)
 6957	0x8A02	訂 (<CJK Ideograph>)
 6958	0x8A03	訃 (<CJK Ideograph>)
 6959	0x8C9E	貞 (<CJK Ideograph>)
 6960	0x8CA0	負 (<CJK Ideograph>)
 6961	0x8D74	赴 (<CJK Ideograph>)
 6962	0x8D73	赳 (<CJK Ideograph>)
 6963	0x8DB4	趴 (<CJK Ideograph>)
 6964	0x8ECD	軍 (<CJK Ideograph>)
 6965	0x8ECC	軌 (<CJK Ideograph>)
 6966	0x8FF0	述 (<CJK Ideograph>)
 6967	0x8FE6	迦 (<CJK Ideograph>)
 6968	0x8FE2	迢 (<CJK Ideograph>)
 6969	0x8FEA	迪 (<CJK Ideograph>)
 6970	0x8FE5	迥 (<CJK Ideograph>)
 6971	0x8FED	迭 (<CJK Ideograph>)
 6972	0x8FEB	迫 (<CJK Ideograph>)
 6973	0x8FE4	迤 (<CJK Ideograph>)
 6974	0x8FE8	迨 (<CJK Ideograph>)
 6975	0x90CA	郊 (<CJK Ideograph>)
 6976	0x90CE	郎 (<CJK Ideograph>)
 6977	0x90C1	郁 (<CJK Ideograph>)
 6978	0x90C3	郃 (<CJK Ideograph>)
 6979	0x914B	酋 (<CJK Ideograph>)
 6980	0x914A	酊 (<CJK Ideograph>)
 6981	0x91CD	重 (<CJK Ideograph>)
 6982	0x9582	閂 (<CJK Ideograph>)
 6983	0x9650	限 (<CJK Ideograph>)
 6984	0x964B	陋 (<CJK Ideograph>)
 6985	0x964C	陌 (<CJK Ideograph>)
 6986	0x964D	降 (<CJK Ideograph>)
 6987	0x9762	面 (<CJK Ideograph>)
 6988	0x9769	革 (<CJK Ideograph>)
 6989	0x97CB	韋 (<CJK Ideograph>)
 6990	0x97ED	韭 (<CJK Ideograph>)
 6991	0x97F3	音 (<CJK Ideograph>)
 6992	0x9801	頁 (<CJK Ideograph>)
 6993	0x98A8	風 (<CJK Ideograph>)
 6994	0x98DB	飛 (<CJK Ideograph>)
 6995	0x98DF	食 (<CJK Ideograph>)
 6996	0x9996	首 (<CJK Ideograph>)
 6997	0x9999	香 (<CJK Ideograph>)
 6998	0x4E58	乘 (<CJK Ideograph>)
 6999	0x4EB3	亳 (<CJK Ideograph>)
 7000	0x500C	倌 (<CJK Ideograph>)
 7001	0x500D	倍 (<CJK Ideograph>)
 7002	0x5023	倣 (<CJK Ideograph>)
 7003	0x4FEF	俯 (<CJK Ideograph>)
 7004	0x5026	倦 (<CJK Ideograph>)
 7005	0x5025	倥 (<CJK Ideograph>)
 7006	0x4FF8	俸 (<CJK Ideograph>)
 7007	0x5029	倩 (<CJK Ideograph>)
 7008	0x5016	倖 (<CJK Ideograph>)
 7009	0x5006	倆 (<CJK Ideograph>)
 7010	0x503C	值 (<CJK Ideograph>)
 7011	0x501F	借 (<CJK Ideograph>)
 7012	0x501A	倚 (<CJK Ideograph>)
 7013	0x5012	倒 (<CJK Ideograph>)
 7014	0x5011	們 (<CJK Ideograph>)
 7015	0x4FFA	俺 (<CJK Ideograph>)
 7016	0x5000	倀 (<CJK Ideograph>)
 7017	0x5014	倔 (<CJK Ideograph>)
 7018	0x5028	倨 (<CJK Ideograph>)
 7019	0x4FF1	俱 (<CJK Ideograph>)
 7020	0x5021	倡 (<CJK Ideograph>)
 7021	0x500B	個 (<CJK Ideograph>)
 7022	0x5019	候 (<CJK Ideograph>)
 7023	0x5018	倘 (<CJK Ideograph>)
 7024	0x4FF3	俳 (<CJK Ideograph>)
 7025	0x4FEE	修 (<CJK Ideograph>)
 7026	0x502D	倭 (<CJK Ideograph>)
 7027	0x502A	倪 (<CJK Ideograph>)
 7028	0x4FFE	俾 (<CJK Ideograph>)
 7029	0x502B	倫 (<CJK Ideograph>)
 7030	0x5009	倉 (<CJK Ideograph>)
 7031	0x517C	兼 (<CJK Ideograph>)
 7032	0x51A4	冤 (<CJK Ideograph>)
 7033	0x51A5	冥 (<CJK Ideograph>)
 7034	0x51A2	冢 (<CJK Ideograph>)
 7035	0x51CD	凍 (<CJK Ideograph>)
 7036	0x51CC	凌 (<CJK Ideograph>)
 7037	0x51C6	准 (<CJK Ideograph>)
 7038	0x51CB	凋 (<CJK Ideograph>)
 7039	0x5256	剖 (<CJK Ideograph>)
 7040	0x525C	剜 (<CJK Ideograph>)
 7041	0x5254	剔 (<CJK Ideograph>)
 7042	0x525B	剛 (<CJK Ideograph>)
 7043	0x525D	剝 (<CJK Ideograph>)
 7044	0x532A	匪 (<CJK Ideograph>)
 7045	0x537F	卿 (<CJK Ideograph>)
 7046	0x539F	原 (<CJK Ideograph>)
 7047	0x539D	厝 (<CJK Ideograph>)
 7048	0x53DF	叟 (<CJK Ideograph>)
 7049	0x54E8	哨 (<CJK Ideograph>)
 7050	0x5510	唐 (<CJK Ideograph>)
 7051	0x5501	唁 (<CJK Ideograph>)
 7052	0x5537	唷 (<CJK Ideograph>)
 7053	0x54FC	哼 (<CJK Ideograph>)
 7054	0x54E5	哥 (<CJK Ideograph>)
 7055	0x54F2	哲 (<CJK Ideograph>)
 7056	0x5506	唆 (<CJK Ideograph>)
 7057	0x54FA	哺 (<CJK Ideograph>)
 7058	0x5514	唔 (<CJK Ideograph>)
 7059	0x54E9	哩 (<CJK Ideograph>)
 7060	0x54ED	哭 (<CJK Ideograph>)
 7061	0x54E1	員 (<CJK Ideograph>)
 7062	0x5509	唉 (<CJK Ideograph>)
 7063	0x54EE	哮 (<CJK Ideograph>)
 7064	0x54EA	哪 (<CJK Ideograph>)
"#

/-- encoding_tables/whatwg/index-big5.txt:5923-6079 -/
noncomputable def index45 : List Text := lines! r#" 7065	0x54E6	哦 (<CJK Ideograph>)
 7066	0x5527	唧 (<CJK Ideograph>)
 7067	0x5507	唇 (<CJK Ideograph>)
 7068	0x54FD	哽 (<CJK Ideograph>)
 7069	0x550F	唏 (<CJK Ideograph>)
 7070	0x5703	圃 (<CJK Ideograph>)
 7071	0x5704	圄 (<CJK Ideograph>)
 7072	0x57C2	埂 (<CJK Ideograph>)
 7073	0x57D4	埔 (<CJK Ideograph>)
 7074	0x57CB	埋 (<CJK Ideograph>)
 7075	0x57C3	埃 (<CJK Ideograph>)
 7076	0x5809	堉 (<CJK Ideograph>)
 7077	0x590F	夏 (<CJK Ideograph>)
 7078	0x5957	套 (<CJK Ideograph>)
 7079	0x5958	奘 (<CJK Ideograph>)
 7080	0x595A	奚 (<CJK Ideograph>)
 7081	0x5A11	娑 (<CJK Ideograph>)
 7082	0x5A18	娘 (<CJK Ideograph>)
 7083	0x5A1C	娜 (<CJK Ideograph>)
 7084	0x5A1F	娟 (<CJK Ideograph>)
 7085	0x5A1B	娛 (<CJK Ideograph>)
 7086	0x5A13	娓 (<CJK Ideograph>)
 7087	0x59EC	姬 (<CJK Ideograph>)
 7088	0x5A20	娠 (<CJK Ideograph>)
 7089	0x5A23	娣 (<CJK Ideograph>)
 7090	0x5A29	娩 (<CJK Ideograph>)
 7091	0x5A25	娥 (<CJK Ideograph>)
 7092	0x5A0C	娌 (<CJK Ideograph>)
 7093	0x5A09	娉 (<CJK Ideograph>)
 7094	0x5B6B	孫 (<CJK Ideograph>)
 7095	0x5C58	屘 (<CJK Ideograph>)
 7096	0x5BB0	宰 (<CJK Ideograph>)
 7097	0x5BB3	害 (<CJK Ideograph>)
 7098	0x5BB6	家 (<CJK Ideograph>)
 7099	0x5BB4	宴 (<CJK Ideograph>)
 7100	0x5BAE	宮 (<CJK Ideograph>)
 7101	0x5BB5	宵 (<CJK Ideograph>)
 7102	0x5BB9	容 (<CJK Ideograph>)
 7103	0x5BB8	宸 (<CJK Ideograph>)
 7104	0x5C04	射 (<CJK Ideograph>)
 7105	0x5C51	屑 (<CJK Ideograph>)
 7106	0x5C55	展 (<CJK Ideograph>)
 7107	0x5C50	屐 (<CJK Ideograph>)
 7108	0x5CED	峭 (<CJK Ideograph>)
 7109	0x5CFD	峽 (<CJK Ideograph>)
 7110	0x5CFB	峻 (<CJK Ideograph>)
 7111	0x5CEA	峪 (<CJK Ideograph>)
 7112	0x5CE8	峨 (<CJK Ideograph>)
 7113	0x5CF0	峰 (<CJK Ideograph>)
 7114	0x5CF6	島 (<CJK Ideograph>)
 7115	0x5D01	崁 (<CJK Ideograph>)
 7116	0x5CF4	峴 (<CJK Ideograph>)
 7117	0x5DEE	差 (<CJK Ideograph>)
 7118	0x5E2D	席 (<CJK Ideograph>)
 7119	0x5E2B	師 (<CJK Ideograph>)
 7120	0x5EAB	庫 (<CJK Ideograph>)
 7121	0x5EAD	庭 (<CJK Ideograph>)
 7122	0x5EA7	座 (<CJK Ideograph>)
 7123	0x5F31	弱 (<CJK Ideograph>)
 7124	0x5F92	徒 (<CJK Ideograph>)
 7125	0x5F91	徑 (<CJK Ideograph>)
 7126	0x5F90	徐 (<CJK Ideograph>)
 7127	0x6059	恙 (<CJK Ideograph>)
 7128	0x6063	恣 (<CJK Ideograph>)
 7129	0x6065	恥 (<CJK Ideograph>)
 7130	0x6050	恐 (<CJK Ideograph>)
 7131	0x6055	恕 (<CJK Ideograph>)
 7132	0x606D	恭 (<CJK Ideograph>)
 7133	0x6069	恩 (<CJK Ideograph>)
 7134	0x606F	息 (<CJK Ideograph>)
 7135	0x6084	悄 (<CJK Ideograph>)
 7136	0x609F	悟 (<CJK Ideograph>)
 7137	0x609A	悚 (<CJK Ideograph>)
 7138	0x608D	悍 (<CJK Ideograph>)
 7139	0x6094	悔 (<CJK Ideograph>)
 7140	0x608C	悌 (<CJK Ideograph>)
 7141	0x6085	悅 (<CJK Ideograph>)
 7142	0x6096	悖 (<CJK Ideograph>)
 7143	0x6247	扇 (<CJK Ideograph>)
 7144	0x62F3	拳 (<CJK Ideograph>)
 7145	0x6308	挈 (<CJK Ideograph>)
 7146	0x62FF	拿 (<CJK Ideograph>)
 7147	0x634E	捎 (<CJK Ideograph>)
 7148	0x633E	挾 (<CJK Ideograph>)
 7149	0x632F	振 (<CJK Ideograph>)
 7150	0x6355	捕 (<CJK Ideograph>)
 7151	0x6342	捂 (<CJK Ideograph>)
 7152	0x6346	捆 (<CJK Ideograph>)
 7153	0x634F	捏 (<CJK Ideograph>)
 7154	0x6349	捉 (<CJK Ideograph>)
 7155	0x633A	挺 (<CJK Ideograph>)
 7156	0x6350	捐 (<CJK Ideograph>)
 7157	0x633D	挽 (<CJK Ideograph>)
 7158	0x632A	挪 (<CJK Ideograph>)
 7159	0x632B	挫 (<CJK Ideograph>)
 7160	0x6328	挨 (<CJK Ideograph>)
 7161	0x634D	捍 (<CJK Ideograph>)
 7162	0x634C	捌 (<CJK Ideograph>)
 7163	0x6548	效 (<CJK Ideograph>)
 7164	0x6549	敉 (<CJK Ideograph>)
 7165	0x6599	料 (<CJK Ideograph>)
 7166	0x65C1	旁 (<CJK Ideograph>)
 7167	0x65C5	旅 (<CJK Ideograph>)
 7168	0x6642	時 (<CJK Ideograph>)
 7169	0x6649	晉 (<CJK Ideograph>)
 7170	0x664F	晏 (<CJK Ideograph>)
 7171	0x6643	晃 (<CJK Ideograph>)
 7172	0x6652	晒 (<CJK Ideograph>)
 7173	0x664C	晌 (<CJK Ideograph>)
 7174	0x6645	晅 (<CJK Ideograph>)
 7175	0x6641	晁 (<CJK Ideograph>)
 7176	0x66F8	書 (<CJK Ideograph>)
 7177	0x6714	朔 (<CJK Ideograph>)
 7178	0x6715	朕 (<CJK Ideograph>)
 7179	0x6717	朗 (<CJK Ideograph>)
 7180	0x6821	校 (<CJK Ideograph>)
 7181	0x6838	核 (<CJK Ideograph>)
 7182	0x6848	案 (<CJK Ideograph>)
 7183	0x6846	框 (<CJK Ideograph>)
 7184	0x6853	桓 (<CJK Ideograph>)
 7185	0x6839	根 (<CJK Ideograph>)
 7186	0x6842	桂 (<CJK Ideograph>)
 7187	0x6854	桔 (<CJK Ideograph>)
 7188	0x6829	栩 (<CJK Ideograph>)
 7189	0x68B3	梳 (<CJK Ideograph>)
 7190	0x6817	栗 (<CJK Ideograph>)
 7191	0x684C	桌 (<CJK Ideograph>)
 7192	0x6851	桑 (<CJK Ideograph>)
 7193	0x683D	栽 (<CJK Ideograph>)
 7194	0x67F4	柴 (<CJK Ideograph>)
 7195	0x6850	桐 (<CJK Ideograph>)
 7196	0x6840	桀 (<CJK Ideograph>)
 7197	0x683C	格 (<CJK Ideograph>)
 7198	0x6843	桃 (<CJK Ideograph>)
 7199	0x682A	株 (<CJK Ideograph>)
 7200	0x6845	桅 (<CJK Ideograph>)
 7201	0x6813	栓 (<CJK Ideograph>)
 7202	0x6818	栘 (<CJK Ideograph>)
 7203	0x6841	桁 (<CJK Ideograph>)
 7204	0x6B8A	殊 (<CJK Ideograph>)
 7205	0x6B89	殉 (<CJK Ideograph>)
 7206	0x6BB7	殷 (<CJK Ideograph>)
 7207	0x6C23	氣 (<CJK Ideograph>)
 7208	0x6C27	氧 (<CJK Ideograph>)
 7209	0x6C28	氨 (<CJK Ideograph>)
 7210	0x6C26	氦 (<CJK Ideograph>)
 7211	0x6C24	氤 (<CJK Ideograph>)
 7212	0x6CF0	泰 (<CJK Ideograph>)
 7213	0x6D6A	浪 (<CJK Ideograph>)
 7214	0x6D95	涕 (<CJK Ideograph>)
 7215	0x6D88	消 (<CJK Ideograph>)
 7216	0x6D87	涇 (<CJK Ideograph>)
 7217	0x6D66	浦 (<CJK Ideograph>)
 7218	0x6D78	浸 (<CJK Ideograph>)
 7219	0x6D77	海 (<CJK Ideograph>)
 7220	0x6D59	浙 (<CJK Ideograph>)
 7221	0x6D93	涓 (<CJK Ideograph>)
"#

/-- encoding_tables/whatwg/index-big5.txt:6080-6236 -/
noncomputable def index46 : List Text := lines! r#" 7222	0x6D6C	浬 (<CJK Ideograph>)
 7223	0x6D89	涉 (<CJK Ideograph>)
 7224	0x6D6E	浮 (<CJK Ideograph>)
 7225	0x6D5A	浚 (<CJK Ideograph>)
 7226	0x6D74	浴 (<CJK Ideograph>)
 7227	0x6D69	浩 (<CJK Ideograph>)
 7228	0x6D8C	涌 (<CJK Ideograph>)
 7229	0x6D8A	涊 (<CJK Ideograph>)
 7230	0x6D79	浹 (<CJK Ideograph>)
 7231	0x6D85	涅 (<CJK Ideograph>)
 7232	0x6D65	浥 (<CJK Ideograph>)
 7233	0x6D94	涔 (<CJK Ideograph>)
 7234	0x70CA	烊 (<CJK Ideograph>)
 7235	0x70D8	烘 (<CJK Ideograph>)
 7236	0x70E4	烤 (<CJK Ideograph>)
 7237	0x70D9	烙 (<CJK Ideograph>)
 7238	0x70C8	烈 (<CJK Ideograph>)
 7239	0x70CF	烏 (<CJK Ideograph>)
 7240	0x7239	爹 (<CJK Ideograph>)
 7241	0x7279	特 (<CJK Ideograph>)
 7242	0x72FC	狼 (<CJK Ideograph>)
 7243	0x72F9	狹 (<CJK Ideograph>)
 7244	0x72FD	狽 (<CJK Ideograph>)
 7245	0x72F8	狸 (<CJK Ideograph>)
 7246	0x72F7	狷 (<CJK Ideograph>)
 7247	0x7386	玆 (<CJK Ideograph>)
 7248	0x73ED	班 (<CJK Ideograph>)
 7249	0x7409	琉 (<CJK Ideograph>)
 7250	0x73EE	珮 (<CJK Ideograph>)
 7251	0x73E0	珠 (<CJK Ideograph>)
 7252	0x73EA	珪 (<CJK Ideograph>)
 7253	0x73DE	珞 (<CJK Ideograph>)
 7254	0x7554	畔 (<CJK Ideograph>)
 7255	0x755D	畝 (<CJK Ideograph>)
 7256	0x755C	畜 (<CJK Ideograph>)
 7257	0x755A	畚 (<CJK Ideograph>)
 7258	0x7559	留 (<CJK Ideograph>)
 7259	0x75BE	疾 (<CJK Ideograph>)
 7260	0x75C5	病 (<CJK Ideograph>)
 7261	0x75C7	症 (<CJK Ideograph>)
 7262	0x75B2	疲 (<CJK Ideograph>)
 7263	0x75B3	疳 (<CJK Ideograph>)
 7264	0x75BD	疽 (<CJK Ideograph>)
 7265	0x75BC	疼 (<CJK Ideograph>)
 7266	0x75B9	疹 (<CJK Ideograph>)
 7267	0x75C2	痂 (<CJK Ideograph>)
 7268	0x75B8	疸 (<CJK Ideograph>)
 7269	0x768B	皋 (<CJK Ideograph>)
 7270	0x76B0	皰 (<CJK Ideograph>)
 7271	0x76CA	益 (<CJK Ideograph>)
 7272	0x76CD	盍 (<CJK Ideograph>)
 7273	0x76CE	盎 (<CJK Ideograph>)
 7274	0x7729	眩 (<CJK Ideograph>)
 7275	0x771F	真 (<CJK Ideograph>)
 7276	0x7720	眠 (<CJK Ideograph>)
 7277	0x7728	眨 (<CJK Ideograph>)
 7278	0x77E9	矩 (<CJK Ideograph>)
 7279	0x7830	砰 (<CJK Ideograph>)
 7280	0x7827	砧 (<CJK Ideograph>)
 7281	0x7838	砸 (<CJK Ideograph>)
 7282	0x781D	砝 (<CJK Ideograph>)
 7283	0x7834	破 (<CJK Ideograph>)
 7284	0x7837	砷 (<CJK Ideograph>)
 7285	0x7825	砥 (<CJK Ideograph>)
 7286	0x782D	砭 (<CJK Ideograph>)
 7287	0x7820	砠 (<CJK Ideograph>)
 7288	0x781F	砟 (<CJK Ideograph>)
 7289	0x7832	砲 (<CJK Ideograph>)
 7290	0x7955	祕 (<CJK Ideograph>)
 7291	0x7950	祐 (<CJK Ideograph>)
 7292	0x7960	祠 (<CJK Ideograph>)
 7293	0x795F	祟 (<CJK Ideograph>)
 7294	0x7956	祖 (<CJK Ideograph>)
 7295	0x795E	神 (<CJK Ideograph>)
 7296	0x795D	祝 (<CJK Ideograph>)
 7297	0x7957	祗 (<CJK Ideograph>)
 7298	0x795A	祚 (<CJK Ideograph>)
 7299	0x79E4	秤 (<CJK Ideograph>)
 7300	0x79E3	秣 (<CJK Ideograph>)
 7301	0x79E7	秧 (<CJK Ideograph>)
 7302	0x79DF	租 (<CJK Ideograph>)
 7303	0x79E6	秦 (<CJK Ideograph>)
 7304	0x79E9	秩 (<CJK Ideograph>)
 7305	0x79D8	秘 (<CJK Ideograph>)
 7306	0x7A84	窄 (<CJK Ideograph>)
 7307	0x7A88	窈 (<CJK Ideograph>)
 7308	0x7AD9	站 (<CJK Ideograph>)
 7309	0x7B06	笆 (<CJK Ideograph>)
 7310	0x7B11	笑 (<CJK Ideograph>)
 7311	0x7C89	粉 (<CJK Ideograph>)
 7312	0x7D21	紡 (<CJK Ideograph>)
 7313	0x7D17	紗 (<CJK Ideograph>)
 7314	0x7D0B	紋 (<CJK Ideograph>)
 7315	0x7D0A	紊 (<CJK Ideograph>)
 7316	0x7D20	素 (<CJK Ideograph>)
 7317	0x7D22	索 (<CJK Ideograph>)
 7318	0x7D14	純 (<CJK Ideograph>)
 7319	0x7D10	紐 (<CJK Ideograph>)
 7320	0x7D15	紕 (<CJK Ideograph>)
 7321	0x7D1A	級 (<CJK Ideograph>)
 7322	0x7D1C	紜 (<CJK Ideograph>)
 7323	0x7D0D	納 (<CJK Ideograph>)
 7324	0x7D19	紙 (<CJK Ideograph>)
 7325	0x7D1B	紛 (<CJK Ideograph>)
 7326	0x7F3A	缺 (<CJK Ideograph>)
 7327	0x7F5F	罟 (<CJK Ideograph>)
 7328	0x7F94	羔 (<CJK Ideograph>)
 7329	0x7FC5	翅 (<CJK Ideograph>)
 7330	0x7FC1	翁 (<CJK Ideograph>)
 7331	0x8006	耆 (<CJK Ideograph>)
 7332	0x8018	耘 (<CJK Ideograph>)
 7333	0x8015	耕 (<CJK Ideograph>)
 7334	0x8019	耙 (<CJK Ideograph>)
 7335	0x8017	耗 (<CJK Ideograph>)
 7336	0x803D	耽 (<CJK Ideograph>)
 7337	0x803F	耿 (<CJK Ideograph>)
 7338	0x80F1	胱 (<CJK Ideograph>)
 7339	0x8102	脂 (<CJK Ideograph>)
 7340	0x80F0	胰 (<CJK Ideograph>)
 7341	0x8105	脅 (<CJK Ideograph>)
 7342	0x80ED	胭 (<CJK Ideograph>)
 7343	0x80F4	胴 (<CJK Ideograph>)
 7344	0x8106	脆 (<CJK Ideograph>)
 7345	0x80F8	胸 (<CJK Ideograph>)
 7346	0x80F3	胳 (<CJK Ideograph>)
 7347	0x8108	脈 (<CJK Ideograph>)
 7348	0x80FD	能 (<CJK Ideograph>)
 7349	0x810A	脊 (<CJK Ideograph>)
 7350	0x80FC	胼 (<CJK Ideograph>)
 7351	0x80EF	胯 (<CJK Ideograph>)
 7352	0x81ED	臭 (<CJK Ideograph>)
 7353	0x81EC	臬 (<CJK Ideograph>)
 7354	0x8200	舀 (<CJK Ideograph>)
 7355	0x8210	舐 (<CJK Ideograph>)
 7356	0x822A	航 (<CJK Ideograph>)
 7357	0x822B	舫 (<CJK Ideograph>)
 7358	0x8228	舨 (<CJK Ideograph>)
 7359	0x822C	般 (<CJK Ideograph>)
 7360	0x82BB	芻 (<CJK Ideograph>)
 7361	0x832B	茫 (<CJK Ideograph>)
 7362	0x8352	荒 (<CJK Ideograph>)
 7363	0x8354	荔 (<CJK Ideograph>)
 7364	0x834A	荊 (<CJK Ideograph>)
 7365	0x8338	茸 (<CJK Ideograph>)
 7366	0x8350	荐 (<CJK Ideograph>)
 7367	0x8349	草 (<CJK Ideograph>)
 7368	0x8335	茵 (<CJK Ideograph>)
 7369	0x8334	茴 (<CJK Ideograph>)
 7370	0x834F	荏 (<CJK Ideograph>)
 7371	0x8332	茲 (<CJK Ideograph>)
 7372	0x8339	茹 (<CJK Ideograph>)
 7373	0x8336	茶 (<CJK Ideograph>)
 7374	0x8317	茗 (<CJK Ideograph>)
 7375	0x8340	荀 (<CJK Ideograph>)
 7376	0x8331	茱 (<CJK Ideograph>)
 7377	0x8328	茨 (<CJK Ideograph>)
 7378	0x8343	荃 (<CJK Ideograph>)
"#

/-- encoding_tables/whatwg/index-big5.txt:6237-6393 -/
noncomputable def index47 : List Text := lines! r#" 7379	0x8654	虔 (<CJK Ideograph>)
 7380	0x868A	蚊 (<CJK Ideograph>)
 7381	0x86AA	蚪 (<CJK Ideograph>)
 7382	0x8693	蚓 (<CJK Ideograph>)
 7383	0x86A4	蚤 (<CJK Ideograph>)
 7384	0x86A9	蚩 (<CJK Ideograph>)
 7385	0x868C	蚌 (<CJK Ideograph>)
 7386	0x86A3	蚣 (<CJK Ideograph>)
 7387	0x869C	蚜 (<CJK Ideograph>)
 7388	0x8870	衰 (<CJK Ideograph>)
 7389	0x8877	衷 (<CJK Ideograph>)
 7390	0x8881	袁 (<CJK Ideograph>)
 7391	0x8882	袂 (<CJK Ideograph>)
 7392	0x887D	衽 (<CJK Ideograph>)
 7393	0x8879	衹 (<CJK Ideograph>)
 7394	0x8A18	記 (<CJK Ideograph>)
 7395	0x8A10	訐 (<CJK Ideograph>)
 7396	0x8A0E	討 (<CJK Ideograph>)
 7397	0x8A0C	訌 (<CJK Ideograph>)
 7398	0x8A15	訕 (<CJK Ideograph>)
 7399	0x8A0A	訊 (<CJK Ideograph>)
 7400	0x8A17	託 (<CJK Ideograph>)
 7401	0x8A13	訓 (<CJK Ideograph>)
 7402	0x8A16	訖 (<CJK Ideograph>)
 7403	0x8A0F	訏 (<CJK Ideograph>)
 7404	0x8A11	訑 (<CJK Ideograph>)
 7405	0x8C48	豈 (<CJK Ideograph>)
 7406	0x8C7A	豺 (<CJK Ideograph>)
 7407	0x8C79	豹 (<CJK Ideograph>)
 7408	0x8CA1	財 (<CJK Ideograph>)
 7409	0x8CA2	貢 (<CJK Ideograph>)
 7410	0x8D77	起 (<CJK Ideograph>)
 7411	0x8EAC	躬 (<CJK Ideograph>)
 7412	0x8ED2	軒 (<CJK Ideograph>)
 7413	0x8ED4	軔 (<CJK Ideograph>)
 7414	0x8ECF	軏 (<CJK Ideograph>)
 7415	0x8FB1	辱 (<CJK Ideograph>)
 7416	0x9001	送 (<CJK Ideograph>)
 7417	0x9006	逆 (<CJK Ideograph>)
 7418	0x8FF7	迷 (<CJK Ideograph>)
 7419	0x9000	退 (<CJK Ideograph>)
 7420	0x8FFA	迺 (<CJK Ideograph>)
 7421	0x8FF4	迴 (<CJK Ideograph>)
 7422	0x9003	逃 (<CJK Ideograph>)
 7423	0x8FFD	追 (<CJK Ideograph>)
 7424	0x9005	逅 (<CJK Ideograph>)
 7425	0x8FF8	迸 (<CJK Ideograph>)
 7426	0x9095	邕 (<CJK Ideograph>)
 7427	0x90E1	郡 (<CJK Ideograph>)
 7428	0x90DD	郝 (<CJK Ideograph>)
 7429	0x90E2	郢 (<CJK Ideograph>)
 7430	0x9152	酒 (<CJK Ideograph>)
 7431	0x914D	配 (<CJK Ideograph>)
 7432	0x914C	酌 (<CJK Ideograph>)
 7433	0x91D8	釘 (<CJK Ideograph>)
 7434	0x91DD	針 (<CJK Ideograph>)
 7435	0x91D7	釗 (<CJK Ideograph>)
 7436	0x91DC	釜 (<CJK Ideograph>)
 7437	0x91D9	釙 (<CJK Ideograph>)
 7438	0x9583	閃 (<CJK Ideograph>)
 7439	0x9662	院 (<CJK Ideograph>)
 7440	0x9663	陣 (<CJK Ideograph>)
 7441	0x9661	陡 (<CJK Ideograph>)
 7442	0x965B	陛 (<CJK Ideograph>)
 7443	0x965D	陝 (<CJK Ideograph>)
 7444	0x9664	除 (<CJK Ideograph>)
 7445	0x9658	陘 (<CJK Ideograph>)
 7446	0x965E	陞 (<CJK Ideograph>)
 7447	0x96BB	隻 (<CJK Ideograph>)
 7448	0x98E2	飢 (<CJK Ideograph>)
 7449	0x99AC	馬 (<CJK Ideograph>)
 7450	0x9AA8	骨 (<CJK Ideograph>)
 7451	0x9AD8	高 (<CJK Ideograph>)
 7452	0x9B25	鬥 (<CJK Ideograph>)
 7453	0x9B32	鬲 (<CJK Ideograph>)
 7454	0x9B3C	鬼 (<CJK Ideograph>)
 7455	0x4E7E	乾 (<CJK Ideograph>)
 7456	0x507A	偺 (<CJK Ideograph>)
 7457	0x507D	偽 (<CJK Ideograph>)
 7458	0x505C	停 (<CJK Ideograph>)
 7459	0x5047	假 (<CJK Ideograph>)
 7460	0x5043	偃 (<CJK Ideograph>)
 7461	0x504C	偌 (<CJK Ideograph>)
 7462	0x505A	做 (<CJK Ideograph>)
 7463	0x5049	偉 (<CJK Ideograph>)
 7464	0x5065	健 (<CJK Ideograph>)
 7465	0x5076	偶 (<CJK Ideograph>)
 7466	0x504E	偎 (<CJK Ideograph>)
 7467	0x5055	偕 (<CJK Ideograph>)
 7468	0x5075	偵 (<CJK Ideograph>)
 7469	0x5074	側 (<CJK Ideograph>)
 7470	0x5077	偷 (<CJK Ideograph>)
 7471	0x504F	偏 (<CJK Ideograph>)
 7472	0x500F	倏 (<CJK Ideograph>)
 7473	0x506F	偯 (<CJK Ideograph>)
 7474	0x506D	偭 (<CJK Ideograph>)
 7475	0x515C	兜 (<CJK Ideograph>)
 7476	0x5195	冕 (<CJK Ideograph>)
 7477	0x51F0	凰 (<CJK Ideograph>)
 7478	0x526A	剪 (<CJK Ideograph>)
 7479	0x526F	副 (<CJK Ideograph>)
 7480	0x52D2	勒 (<CJK Ideograph>)
 7481	0x52D9	務 (<CJK Ideograph>)
 7482	0x52D8	勘 (<CJK Ideograph>)
 7483	0x52D5	動 (<CJK Ideograph>)
 7484	0x5310	匐 (<CJK Ideograph>)
 7485	0x530F	匏 (<CJK Ideograph>)
 7486	0x5319	匙 (<CJK Ideograph>)
 7487	0x533F	匿 (<CJK Ideograph>)
 7488	0x5340	區 (<CJK Ideograph>)
 7489	0x533E	匾 (<CJK Ideograph>)
 7490	0x53C3	參 (<CJK Ideograph>)
 7491	0x66FC	曼 (<CJK Ideograph>)
 7492	0x5546	商 (<CJK Ideograph>)
 7493	0x556A	啪 (<CJK Ideograph>)
 7494	0x5566	啦 (<CJK Ideograph>)
 7495	0x5544	啄 (<CJK Ideograph>)
 7496	0x555E	啞 (<CJK Ideograph>)
 7497	0x5561	啡 (<CJK Ideograph>)
 7498	0x5543	啃 (<CJK Ideograph>)
 7499	0x554A	啊 (<CJK Ideograph>)
 7500	0x5531	唱 (<CJK Ideograph>)
 7501	0x5556	啖 (<CJK Ideograph>)
 7502	0x554F	問 (<CJK Ideograph>)
 7503	0x5555	啕 (<CJK Ideograph>)
 7504	0x552F	唯 (<CJK Ideograph>)
 7505	0x5564	啤 (<CJK Ideograph>)
 7506	0x5538	唸 (<CJK Ideograph>)
 7507	0x552E	售 (<CJK Ideograph>)
 7508	0x555C	啜 (<CJK Ideograph>)
 7509	0x552C	唬 (<CJK Ideograph>)
 7510	0x5563	啣 (<CJK Ideograph>)
 7511	0x5533	唳 (<CJK Ideograph>)
 7512	0x5541	啁 (<CJK Ideograph>)
 7513	0x5557	啗 (<CJK Ideograph>)
 7514	0x5708	圈 (<CJK Ideograph>)
 7515	0x570B	國 (<CJK Ideograph>)
 7516	0x5709	圉 (<CJK Ideograph>)
 7517	0x57DF	域 (<CJK Ideograph>)
 7518	0x5805	堅 (<CJK Ideograph>)
 7519	0x580A	堊 (<CJK Ideograph>)
 7520	0x5806	堆 (<CJK Ideograph>)
 7521	0x57E0	埠 (<CJK Ideograph>)
 7522	0x57E4	埤 (<CJK Ideograph>)
 7523	0x57FA	基 (<CJK Ideograph>)
 7524	0x5802	堂 (<CJK Ideograph>)
 7525	0x5835	堵 (<CJK Ideograph>)
 7526	0x57F7	執 (<CJK Ideograph>)
 7527	0x57F9	培 (<CJK Ideograph>)
 7528	0x5920	夠 (<CJK Ideograph>)
 7529	0x5962	奢 (<CJK Ideograph>)
 7530	0x5A36	娶 (<CJK Ideograph>)
 7531	0x5A41	婁 (<CJK Ideograph>)
 7532	0x5A49	婉 (<CJK Ideograph>)
 7533	0x5A66	婦 (<CJK Ideograph>)
 7534	0x5A6A	婪 (<CJK Ideograph>)
 7535	0x5A40	婀 (<CJK Ideograph>)
"#

/-- encoding_tables/whatwg/index-big5.txt:6394-6550 -/
noncomputable def index48 : List Text := lines! r#" 7536	0x5A3C	娼 (<CJK Ideograph>)
 7537	0x5A62	婢 (<CJK Ideograph>)
 7538	0x5A5A	婚 (<CJK Ideograph>)
 7539	0x5A46	婆 (<CJK Ideograph>)
 7540	0x5A4A	婊 (<CJK Ideograph>)
 7541	0x5B70	孰 (<CJK Ideograph>)
 7542	0x5BC7	寇 (<CJK Ideograph>)
 7543	0x5BC5	寅 (<CJK Ideograph>)
 7544	0x5BC4	寄 (<CJK Ideograph>)
 7545	0x5BC2	寂 (<CJK Ideograph>)
 7546	0x5BBF	宿 (<CJK Ideograph>)
 7547	0x5BC6	密 (<CJK Ideograph>)
 7548	0x5C09	尉 (<CJK Ideograph>)
 7549	0x5C08	專 (<CJK Ideograph>)
 7550	0x5C07	將 (<CJK Ideograph>)
 7551	0x5C60	屠 (<CJK Ideograph>)
 7552	0x5C5C	屜 (<CJK Ideograph>)
 7553	0x5C5D	屝 (<CJK Ideograph>)
 7554	0x5D07	崇 (<CJK Ideograph>)
 7555	0x5D06	崆 (<CJK Ideograph>)
 7556	0x5D0E	崎 (<CJK Ideograph>)
 7557	0x5D1B	崛 (<CJK Ideograph>)
 7558	0x5D16	崖 (<CJK Ideograph>)
 7559	0x5D22	崢 (<CJK Ideograph>)
 7560	0x5D11	崑 (<CJK Ideograph>)
 7561	0x5D29	崩 (<CJK Ideograph>)
 7562	0x5D14	崔 (<CJK Ideograph>)
 7563	0x5D19	崙 (<CJK Ideograph>)
 7564	0x5D24	崤 (<CJK Ideograph>)
 7565	0x5D27	崧 (<CJK Ideograph>)
 7566	0x5D17	崗 (<CJK Ideograph>)
 7567	0x5DE2	巢 (<CJK Ideograph>)
 7568	0x5E38	常 (<CJK Ideograph>)
 7569	0x5E36	帶 (<CJK Ideograph>)
 7570	0x5E33	帳 (<CJK Ideograph>)
 7571	0x5E37	帷 (<CJK Ideograph>)
 7572	0x5EB7	康 (<CJK Ideograph>)
 7573	0x5EB8	庸 (<CJK Ideograph>)
 7574	0x5EB6	庶 (<CJK Ideograph>)
 7575	0x5EB5	庵 (<CJK Ideograph>)
 7576	0x5EBE	庾 (<CJK Ideograph>)
 7577	0x5F35	張 (<CJK Ideograph>)
 7578	0x5F37	強 (<CJK Ideograph>)
 7579	0x5F57	彗 (<CJK Ideograph>)
 7580	0x5F6C	彬 (<CJK Ideograph>)
 7581	0x5F69	彩 (<CJK Ideograph>)
 7582	0x5F6B	彫 (<CJK Ideograph>)
 7583	0x5F97	得 (<CJK Ideograph>)
 7584	0x5F99	徙 (<CJK Ideograph>)
 7585	0x5F9E	從 (<CJK Ideograph>)
 7586	0x5F98	徘 (<CJK Ideograph>)
 7587	0x5FA1	御 (<CJK Ideograph>)
 7588	0x5FA0	徠 (<CJK Ideograph>)
 7589	0x5F9C	徜 (<CJK Ideograph>)
 7590	0x607F	恿 (<CJK Ideograph>)
 7591	0x60A3	患 (<CJK Ideograph>)
 7592	0x6089	悉 (<CJK Ideograph>)
 7593	0x60A0	悠 (<CJK Ideograph>)
 7594	0x60A8	您 (<CJK Ideograph>)
 7595	0x60CB	惋 (<CJK Ideograph>)
 7596	0x60B4	悴 (<CJK Ideograph>)
 7597	0x60E6	惦 (<CJK Ideograph>)
 7598	0x60BD	悽 (<CJK Ideograph>)
 7599	0x60C5	情 (<CJK Ideograph>)
 7600	0x60BB	悻 (<CJK Ideograph>)
 7601	0x60B5	悵 (<CJK Ideograph>)
 7602	0x60DC	惜 (<CJK Ideograph>)
 7603	0x60BC	悼 (<CJK Ideograph>)
 7604	0x60D8	惘 (<CJK Ideograph>)
 7605	0x60D5	惕 (<CJK Ideograph>)
 7606	0x60C6	惆 (<CJK Ideograph>)
 7607	0x60DF	惟 (<CJK Ideograph>)
 7608	0x60B8	悸 (<CJK Ideograph>)
 7609	0x60DA	惚 (<CJK Ideograph>)
 7610	0x60C7	惇 (<CJK Ideograph>)
 7611	0x621A	戚 (<CJK Ideograph>)
 7612	0x621B	戛 (<CJK Ideograph>)
 7613	0x6248	扈 (<CJK Ideograph>)
 7614	0x63A0	掠 (<CJK Ideograph>)
 7615	0x63A7	控 (<CJK Ideograph>)
 7616	0x6372	捲 (<CJK Ideograph>)
 7617	0x6396	掖 (<CJK Ideograph>)
 7618	0x63A2	探 (<CJK Ideograph>)
 7619	0x63A5	接 (<CJK Ideograph>)
 7620	0x6377	捷 (<CJK Ideograph>)
 7621	0x6367	捧 (<CJK Ideograph>)
 7622	0x6398	掘 (<CJK Ideograph>)
 7623	0x63AA	措 (<CJK Ideograph>)
 7624	0x6371	捱 (<CJK Ideograph>)
 7625	0x63A9	掩 (<CJK Ideograph>)
 7626	0x6389	掉 (<CJK Ideograph>)
 7627	0x6383	掃 (<CJK Ideograph>)
 7628	0x639B	掛 (<CJK Ideograph>)
 7629	0x636B	捫 (<CJK Ideograph>)
 7630	0x63A8	推 (<CJK Ideograph>)
 7631	0x6384	掄 (<CJK Ideograph>)
 7632	0x6388	授 (<CJK Ideograph>)
 7633	0x6399	掙 (<CJK Ideograph>)
 7634	0x63A1	採 (<CJK Ideograph>)
 7635	0x63AC	掬 (<CJK Ideograph>)
 7636	0x6392	排 (<CJK Ideograph>)
 7637	0x638F	掏 (<CJK Ideograph>)
 7638	0x6380	掀 (<CJK Ideograph>)
 7639	0x637B	捻 (<CJK Ideograph>)
 7640	0x6369	捩 (<CJK Ideograph>)
 7641	0x6368	捨 (<CJK Ideograph>)
 7642	0x637A	捺 (<CJK Ideograph>)
 7643	0x655D	敝 (<CJK Ideograph>)
 7644	0x6556	敖 (<CJK Ideograph>)
 7645	0x6551	救 (<CJK Ideograph>)
 7646	0x6559	教 (<CJK Ideograph>)
 7647	0x6557	敗 (<CJK Ideograph>)
 7648	0x555F	啟 (<CJK Ideograph>)
 7649	0x654F	敏 (<CJK Ideograph>)
 7650	0x6558	敘 (<CJK Ideograph>)
 7651	0x6555	敕 (<CJK Ideograph>)
 7652	0x6554	敔 (<CJK Ideograph>)
 7653	0x659C	斜 (<CJK Ideograph>)
 7654	0x659B	斛 (<CJK Ideograph>)
 7655	0x65AC	斬 (<CJK Ideograph>)
 7656	0x65CF	族 (<CJK Ideograph>)
 7657	0x65CB	旋 (<CJK Ideograph>)
 7658	0x65CC	旌 (<CJK Ideograph>)
 7659	0x65CE	旎 (<CJK Ideograph>)
 7660	0x665D	晝 (<CJK Ideograph>)
 7661	0x665A	晚 (<CJK Ideograph>)
 7662	0x6664	晤 (<CJK Ideograph>)
 7663	0x6668	晨 (<CJK Ideograph>)
 7664	0x6666	晦 (<CJK Ideograph>)
 7665	0x665E	晞 (<CJK Ideograph>)
 7666	0x66F9	曹 (<CJK Ideograph>)
 7667	0x52D7	勗 (<CJK Ideograph>)
 7668	0x671B	望 (<CJK Ideograph>)
 7669	0x6881	梁 (<CJK Ideograph>)
 7670	0x68AF	梯 (<CJK Ideograph>)
 7671	0x68A2	梢 (<CJK Ideograph>)
 7672	0x6893	梓 (<CJK Ideograph>)
 7673	0x68B5	梵 (<CJK Ideograph>)
 7674	0x687F	桿 (<CJK Ideograph>)
 7675	0x6876	桶 (<CJK Ideograph>)
 7676	0x68B1	梱 (<CJK Ideograph>)
 7677	0x68A7	梧 (<CJK Ideograph>)
 7678	0x6897	梗 (<CJK Ideograph>)
 7679	0x68B0	械 (<CJK Ideograph>)
 7680	0x6883	梃 (<CJK Ideograph>)
 7681	0x68C4	棄 (<CJK Ideograph>)
 7682	0x68AD	梭 (<CJK Ideograph>)
 7683	0x6886	梆 (<CJK Ideograph>)
 7684	0x6885	梅 (<CJK Ideograph>)
 7685	0x6894	梔 (<CJK Ideograph>)
 7686	0x689D	條 (<CJK Ideograph>)
 7687	0x68A8	梨 (<CJK Ideograph>)
 7688	0x689F	梟 (<CJK Ideograph>)
 7689	0x68A1	梡 (<CJK Ideograph>)
 7690	0x6882	梂 (<CJK Ideograph>)
 7691	0x6B32	欲 (<CJK Ideograph>)
 7692	0x6BBA	殺 (<CJK Ideograph>)
"#

/-- encoding_tables/whatwg/index-big5.txt:6551-6707 -/
noncomputable def index49 : List Text := lines! r#" 7693	0x6BEB	毫 (<CJK Ideograph>)
 7694	0x6BEC	毬 (<CJK Ideograph>)
 7695	0x6C2B	氫 (<CJK Ideograph>)
 7696	0x6D8E	涎 (<CJK Ideograph>)
 7697	0x6DBC	涼 (<CJK Ideograph>)
 7698	0x6DF3	淳 (<CJK Ideograph>)
 7699	0x6DD9	淙 (<CJK Ideograph>)
 7700	0x6DB2	液 (<CJK Ideograph>)
 7701	0x6DE1	淡 (<CJK Ideograph>)
 7702	0x6DCC	淌 (<CJK Ideograph>)
 7703	0x6DE4	淤 (<CJK Ideograph>)
 7704	0x6DFB	添 (<CJK Ideograph>)
 7705	0x6DFA	淺 (<CJK Ideograph>)
 7706	0x6E05	清 (<CJK Ideograph>)
 7707	0x6DC7	淇 (<CJK Ideograph>)
 7708	0x6DCB	淋 (<CJK Ideograph>)
 7709	0x6DAF	涯 (<CJK Ideograph>)
 7710	0x6DD1	淑 (<CJK Ideograph>)
 7711	0x6DAE	涮 (<CJK Ideograph>)
 7712	0x6DDE	淞 (<CJK Ideograph>)
 7713	0x6DF9	淹 (<CJK Ideograph>)
 7714	0x6DB8	涸 (<CJK Ideograph>)
 7715	0x6DF7	混 (<CJK Ideograph>)
 7716	0x6DF5	淵 (<CJK Ideograph>)
 7717	0x6DC5	淅 (<CJK Ideograph>)
 7718	0x6DD2	淒 (<CJK Ideograph>)
 7719	0x6E1A	渚 (<CJK Ideograph>)
 7720	0x6DB5	涵 (<CJK Ideograph>)
 7721	0x6DDA	淚 (<CJK Ideograph>)
 7722	0x6DEB	淫 (<CJK Ideograph>)
 7723	0x6DD8	淘 (<CJK Ideograph>)
 7724	0x6DEA	淪 (<CJK Ideograph>)
 7725	0x6DF1	深 (<CJK Ideograph>)
 7726	0x6DEE	淮 (<CJK Ideograph>)
 7727	0x6DE8	淨 (<CJK Ideograph>)
 7728	0x6DC6	淆 (<CJK Ideograph>)
 7729	0x6DC4	淄 (<CJK Ideograph>)
 7730	0x6DAA	涪 (<CJK Ideograph>)
 7731	0x6DEC	淬 (<CJK Ideograph>)
 7732	0x6DBF	涿 (<CJK Ideograph>)
 7733	0x6DE6	淦 (<CJK Ideograph>)
 7734	0x70F9	烹 (<CJK Ideograph>)
 7735	0x7109	焉 (<CJK Ideograph>)
 7736	0x710A	焊 (<CJK Ideograph>)
 7737	0x70FD	烽 (<CJK Ideograph>)
 7738	0x70EF	烯 (<CJK Ideograph>)
 7739	0x723D	爽 (<CJK Ideograph>)
 7740	0x727D	牽 (<CJK Ideograph>)
 7741	0x7281	犁 (<CJK Ideograph>)
 7742	0x731C	猜 (<CJK Ideograph>)
 7743	0x731B	猛 (<CJK Ideograph>)
 7744	0x7316	猖 (<CJK Ideograph>)
 7745	0x7313	猓 (<CJK Ideograph>)
 7746	0x7319	猙 (<CJK Ideograph>)
 7747	0x7387	率 (<CJK Ideograph>)
 7748	0x7405	琅 (<CJK Ideograph>)
 7749	0x740A	琊 (<CJK Ideograph>)
 7750	0x7403	球 (<CJK Ideograph>)
 7751	0x7406	理 (<CJK Ideograph>)
 7752	0x73FE	現 (<CJK Ideograph>)
 7753	0x740D	琍 (<CJK Ideograph>)
 7754	0x74E0	瓠 (<CJK Ideograph>)
 7755	0x74F6	瓶 (<CJK Ideograph>)
 7756	0x74F7	瓷 (<CJK Ideograph>)
 7757	0x751C	甜 (<CJK Ideograph>)
 7758	0x7522	產 (<CJK Ideograph>)
 7759	0x7565	略 (<CJK Ideograph>)
 7760	0x7566	畦 (<CJK Ideograph>)
 7761	0x7562	畢 (<CJK Ideograph>)
 7762	0x7570	異 (<CJK Ideograph>)
 7763	0x758F	疏 (<CJK Ideograph>)
 7764	0x75D4	痔 (<CJK Ideograph>)
 7765	0x75D5	痕 (<CJK Ideograph>)
 7766	0x75B5	疵 (<CJK Ideograph>)
 7767	0x75CA	痊 (<CJK Ideograph>)
 7768	0x75CD	痍 (<CJK Ideograph>)
 7769	0x768E	皎 (<CJK Ideograph>)
 7770	0x76D4	盔 (<CJK Ideograph>)
 7771	0x76D2	盒 (<CJK Ideograph>)
 7772	0x76DB	盛 (<CJK Ideograph>)
 7773	0x7737	眷 (<CJK Ideograph>)
 7774	0x773E	眾 (<CJK Ideograph>)
 7775	0x773C	眼 (<CJK Ideograph>)
 7776	0x7736	眶 (<CJK Ideograph>)
 7777	0x7738	眸 (<CJK Ideograph>)
 7778	0x773A	眺 (<CJK Ideograph>)
 7779	0x786B	硫 (<CJK Ideograph>)
 7780	0x7843	硃 (<CJK Ideograph>)
 7781	0x784E	硎 (<CJK Ideograph>)
 7782	0x7965	祥 (<CJK Ideograph>)
 7783	0x7968	票 (<CJK Ideograph>)
 7784	0x796D	祭 (<CJK Ideograph>)
 7785	0x79FB	移 (<CJK Ideograph>)
 7786	0x7A92	窒 (<CJK Ideograph>)
 7787	0x7A95	窕 (<CJK Ideograph>)
 7788	0x7B20	笠 (<CJK Ideograph>)
 7789	0x7B28	笨 (<CJK Ideograph>)
 7790	0x7B1B	笛 (<CJK Ideograph>)
 7791	0x7B2C	第 (<CJK Ideograph>)
 7792	0x7B26	符 (<CJK Ideograph>)
 7793	0x7B19	笙 (<CJK Ideograph>)
 7794	0x7B1E	笞 (<CJK Ideograph>)
 7795	0x7B2E	笮 (<CJK Ideograph>)
 7796	0x7C92	粒 (<CJK Ideograph>)
 7797	0x7C97	粗 (<CJK Ideograph>)
 7798	0x7C95	粕 (<CJK Ideograph>)
 7799	0x7D46	絆 (<CJK Ideograph>)
 7800	0x7D43	絃 (<CJK Ideograph>)
 7801	0x7D71	統 (<CJK Ideograph>)
 7802	0x7D2E	紮 (<CJK Ideograph>)
 7803	0x7D39	紹 (<CJK Ideograph>)
 7804	0x7D3C	紼 (<CJK Ideograph>)
 7805	0x7D40	絀 (<CJK Ideograph>)
 7806	0x7D30	細 (<CJK Ideograph>)
 7807	0x7D33	紳 (<CJK Ideograph>)
 7808	0x7D44	組 (<CJK Ideograph>)
 7809	0x7D2F	累 (<CJK Ideograph>)
 7810	0x7D42	終 (<CJK Ideograph>)
 7811	0x7D32	紲 (<CJK Ideograph>)
 7812	0x7D31	紱 (<CJK Ideograph>)
 7813	0x7F3D	缽 (<CJK Ideograph>)
 7814	0x7F9E	羞 (<CJK Ideograph>)
 7815	0x7F9A	羚 (<CJK Ideograph>)
 7816	0x7FCC	翌 (<CJK Ideograph>)
 7817	0x7FCE	翎 (<CJK Ideograph>)
 7818	0x7FD2	習 (<CJK Ideograph>)
 7819	0x801C	耜 (<CJK Ideograph>)
 7820	0x804A	聊 (<CJK Ideograph>)
 7821	0x8046	聆 (<CJK Ideograph>)
 7822	0x812F	脯 (<CJK Ideograph>)
 7823	0x8116	脖 (<CJK Ideograph>)
 7824	0x8123	脣 (<CJK Ideograph>)
 7825	0x812B	脫 (<CJK Ideograph>)
 7826	0x8129	脩 (<CJK Ideograph>)
 7827	0x8130	脰 (<CJK Ideograph>)
 7828	0x8124	脤 (<CJK Ideograph>)
 7829	0x8202	舂 (<CJK Ideograph>)
 7830	0x8235	舵 (<CJK Ideograph>)
 7831	0x8237	舷 (<CJK Ideograph>)
 7832	0x8236	舶 (<CJK Ideograph>)
 7833	0x8239	船 (<CJK Ideograph>)
 7834	0x838E	莎 (<CJK Ideograph>)
 7835	0x839E	莞 (<CJK Ideograph>)
 7836	0x8398	莘 (<CJK Ideograph>)
 7837	0x8378	荸 (<CJK Ideograph>)
 7838	0x83A2	莢 (<CJK Ideograph>)
 7839	0x8396	莖 (<CJK Ideograph>)
 7840	0x83BD	莽 (<CJK Ideograph>)
 7841	0x83AB	莫 (<CJK Ideograph>)
 7842	0x8392	莒 (<CJK Ideograph>)
 7843	0x838A	莊 (<CJK Ideograph>)
 7844	0x8393	莓 (<CJK Ideograph>)
 7845	0x8389	莉 (<CJK Ideograph>)
 7846	0x83A0	莠 (<CJK Ideograph>)
 7847	0x8377	荷 (<CJK Ideograph>)
 7848	0x837B	荻 (<CJK Ideograph>)
 7849	0x837C	荼 (<CJK Ideograph>)
"#

/-- encoding_tables/whatwg/index-big5.txt:6708-6864 -/
noncomputable def index50 : List Text := lines! r#" 7850	0x8386	莆 (<CJK Ideograph>)
 7851	0x83A7	莧 (<CJK Ideograph>)
 7852	0x8655	處 (<CJK Ideograph>)
 7853	0x5F6A	彪 (<CJK Ideograph>)
 7854	0x86C7	蛇 (<CJK Ideograph>)
 7855	0x86C0	蛀 (<CJK Ideograph>)
 7856	0x86B6	蚶 (<CJK Ideograph>)
 7857	0x86C4	蛄 (<CJK Ideograph>)
 7858	0x86B5	蚵 (<CJK Ideograph>)
 7859	0x86C6	蛆 (<CJK Ideograph>)
 7860	0x86CB	蛋 (<CJK Ideograph>)
 7861	0x86B1	蚱 (<CJK Ideograph>)
 7862	0x86AF	蚯 (<CJK Ideograph>)
 7863	0x86C9	蛉 (<CJK Ideograph>)
 7864	0x8853	術 (<CJK Ideograph>)
 7865	0x889E	袞 (<CJK Ideograph>)
 7866	0x8888	袈 (<CJK Ideograph>)
 7867	0x88AB	被 (<CJK Ideograph>)
 7868	0x8892	袒 (<CJK Ideograph>)
 7869	0x8896	袖 (<CJK Ideograph>)
 7870	0x888D	袍 (<CJK Ideograph>)
 7871	0x888B	袋 (<CJK Ideograph>)
 7872	0x8993	覓 (<CJK Ideograph>)
 7873	0x898F	規 (<CJK Ideograph>)
 7874	0x8A2A	訪 (<CJK Ideograph>)
 7875	0x8A1D	訝 (<CJK Ideograph>)
 7876	0x8A23	訣 (<CJK Ideograph>)
 7877	0x8A25	訥 (<CJK Ideograph>)
 7878	0x8A31	許 (<CJK Ideograph>)
 7879	0x8A2D	設 (<CJK Ideograph>)
 7880	0x8A1F	訟 (<CJK Ideograph>)
 7881	0x8A1B	訛 (<CJK Ideograph>)
 7882	0x8A22	訢 (<CJK Ideograph>)
 7883	0x8C49	豉 (<CJK Ideograph>)
 7884	0x8C5A	豚 (<CJK Ideograph>)
 7885	0x8CA9	販 (<CJK Ideograph>)
 7886	0x8CAC	責 (<CJK Ideograph>)
 7887	0x8CAB	貫 (<CJK Ideograph>)
 7888	0x8CA8	貨 (<CJK Ideograph>)
 7889	0x8CAA	貪 (<CJK Ideograph>)
 7890	0x8CA7	貧 (<CJK Ideograph>)
 7891	0x8D67	赧 (<CJK Ideograph>)
 7892	0x8D66	赦 (<CJK Ideograph>)
 7893	0x8DBE	趾 (<CJK Ideograph>)
 7894	0x8DBA	趺 (<CJK Ideograph>)
 7895	0x8EDB	軛 (<CJK Ideograph>)
 7896	0x8EDF	軟 (<CJK Ideograph>)
 7897	0x9019	這 (<CJK Ideograph>)
 7898	0x900D	逍 (<CJK Ideograph>)
 7899	0x901A	通 (<CJK Ideograph>)
 7900	0x9017	逗 (<CJK Ideograph>)
 7901	0x9023	連 (<CJK Ideograph>)
 7902	0x901F	速 (<CJK Ideograph>)
 7903	0x901D	逝 (<CJK Ideograph>)
 7904	0x9010	逐 (<CJK Ideograph>)
 7905	0x9015	逕 (<CJK Ideograph>)
 7906	0x901E	逞 (<CJK Ideograph>)
 7907	0x9020	造 (<CJK Ideograph>)
 7908	0x900F	透 (<CJK Ideograph>)
 7909	0x9022	逢 (<CJK Ideograph>)
 7910	0x9016	逖 (<CJK Ideograph>)
 7911	0x901B	逛 (<CJK Ideograph>)
 7912	0x9014	途 (<CJK Ideograph>)
 7913	0x90E8	部 (<CJK Ideograph>)
 7914	0x90ED	郭 (<CJK Ideograph>)
 7915	0x90FD	都 (<CJK Ideograph>)
 7916	0x9157	酗 (<CJK Ideograph>)
 7917	0x91CE	野 (<CJK Ideograph>)
 7918	0x91F5	釵 (<CJK Ideograph>)
 7919	0x91E6	釦 (<CJK Ideograph>)
 7920	0x91E3	釣 (<CJK Ideograph>)
 7921	0x91E7	釧 (<CJK Ideograph>)
 7922	0x91ED	釭 (<CJK Ideograph>)
 7923	0x91E9	釩 (<CJK Ideograph>)
 7924	0x9589	閉 (<CJK Ideograph>)
 7925	0x966A	陪 (<CJK Ideograph>)
 7926	0x9675	陵 (<CJK Ideograph>)
 7927	0x9673	陳 (<CJK Ideograph>)
 7928	0x9678	陸 (<CJK Ideograph>)
 7929	0x9670	陰 (<CJK Ideograph>)
 7930	0x9674	陴 (<CJK Ideograph>)
 7931	0x9676	陶 (<CJK Ideograph>)
 7932	0x9677	陷 (<CJK Ideograph>)
 7933	0x966C	陬 (<CJK Ideograph>)
 7934	0x96C0	雀 (<CJK Ideograph>)
 7935	0x96EA	雪 (<CJK Ideograph>)
 7936	0x96E9	雩 (<CJK Ideograph>)
 7937	0x7AE0	章 (<CJK Ideograph>)
 7938	0x7ADF	竟 (<CJK Ideograph>)
 7939	0x9802	頂 (<CJK Ideograph>)
 7940	0x9803	頃 (<CJK Ideograph>)
 7941	0x9B5A	魚 (<CJK Ideograph>)
 7942	0x9CE5	鳥 (<CJK Ideograph>)
 7943	0x9E75	鹵 (<CJK Ideograph>)
 7944	0x9E7F	鹿 (<CJK Ideograph>)
 7945	0x9EA5	麥 (<CJK Ideograph>)
 7946	0x9EBB	麻 (<CJK Ideograph>)
 7947	0x50A2	傢 (<CJK Ideograph>)
 7948	0x508D	傍 (<CJK Ideograph>)
 7949	0x5085	傅 (<CJK Ideograph>)
 7950	0x5099	備 (<CJK Ideograph>)
 7951	0x5091	傑 (<CJK Ideograph>)
 7952	0x5080	傀 (<CJK Ideograph>)
 7953	0x5096	傖 (<CJK Ideograph>)
 7954	0x5098	傘 (<CJK Ideograph>)
 7955	0x509A	傚 (<CJK Ideograph>)
 7956	0x6700	最 (<CJK Ideograph>)
 7957	0x51F1	凱 (<CJK Ideograph>)
 7958	0x5272	割 (<CJK Ideograph>)
 7959	0x5274	剴 (<CJK Ideograph>)
 7960	0x5275	創 (<CJK Ideograph>)
 7961	0x5269	剩 (<CJK Ideograph>)
 7962	0x52DE	勞 (<CJK Ideograph>)
 7963	0x52DD	勝 (<CJK Ideograph>)
 7964	0x52DB	勛 (<CJK Ideograph>)
 7965	0x535A	博 (<CJK Ideograph>)
 7966	0x53A5	厥 (<CJK Ideograph>)
 7967	0x557B	啻 (<CJK Ideograph>)
 7968	0x5580	喀 (<CJK Ideograph>)
 7969	0x55A7	喧 (<CJK Ideograph>)
 7970	0x557C	啼 (<CJK Ideograph>)
 7971	0x558A	喊 (<CJK Ideograph>)
 7972	0x559D	喝 (<CJK Ideograph>)
 7973	0x5598	喘 (<CJK Ideograph>)
 7974	0x5582	喂 (<CJK Ideograph>)
 7975	0x559C	喜 (<CJK Ideograph>)
 7976	0x55AA	喪 (<CJK Ideograph>)
 7977	0x5594	喔 (<CJK Ideograph>)
 7978	0x5587	喇 (<CJK Ideograph>)
 7979	0x558B	喋 (<CJK Ideograph>)
 7980	0x5583	喃 (<CJK Ideograph>)
 7981	0x55B3	喳 (<CJK Ideograph>)
 7982	0x55AE	單 (<CJK Ideograph>)
 7983	0x559F	喟 (<CJK Ideograph>)
 7984	0x553E	唾 (<CJK Ideograph>)
 7985	0x55B2	喲 (<CJK Ideograph>)
 7986	0x559A	喚 (<CJK Ideograph>)
 7987	0x55BB	喻 (<CJK Ideograph>)
 7988	0x55AC	喬 (<CJK Ideograph>)
 7989	0x55B1	喱 (<CJK Ideograph>)
 7990	0x557E	啾 (<CJK Ideograph>)
 7991	0x5589	喉 (<CJK Ideograph>)
 7992	0x55AB	喫 (<CJK Ideograph>)
 7993	0x5599	喙 (<CJK Ideograph>)
 7994	0x570D	圍 (<CJK Ideograph>)
 7995	0x582F	堯 (<CJK Ideograph>)
 7996	0x582A	堪 (<CJK Ideograph>)
 7997	0x5834	場 (<CJK Ideograph>)
 7998	0x5824	堤 (<CJK Ideograph>)
 7999	0x5830	堰 (<CJK Ideograph>)
 8000	0x5831	報 (<CJK Ideograph>)
 8001	0x5821	堡 (<CJK Ideograph>)
 8002	0x581D	堝 (<CJK Ideograph>)
 8003	0x5820	堠 (<CJK Ideograph>)
 8004	0x58F9	壹 (<CJK Ideograph>)
 8005	0x58FA	壺 (<CJK Ideograph>)
 8006	0x5960	奠 (<CJK Ideograph>)
"#

/-- encoding_tables/whatwg/index-big5.txt:6865-7021 -/
noncomputable def index51 : List Text := lines! r#" 8007	0x5A77	婷 (<CJK Ideograph>)
 8008	0x5A9A	媚 (<CJK Ideograph>)
 8009	0x5A7F	婿 (<CJK Ideograph>)
 8010	0x5A92	媒 (<CJK Ideograph>)
 8011	0x5A9B	媛 (<CJK Ideograph>)
 8012	0x5AA7	媧 (<CJK Ideograph>)
 8013	0x5B73	孳 (<CJK Ideograph>)
 8014	0x5B71	孱 (<CJK Ideograph>)
 8015	0x5BD2	寒 (<CJK Ideograph>)
 8016	0x5BCC	富 (<CJK Ideograph>)
 8017	0x5BD3	寓 (<CJK Ideograph>)
 8018	0x5BD0	寐 (<CJK Ideograph>)
 8019	0x5C0A	尊 (<CJK Ideograph>)
 8020	0x5C0B	尋 (<CJK Ideograph>)
 8021	0x5C31	就 (<CJK Ideograph>)
 8022	0x5D4C	嵌 (<CJK Ideograph>)
 8023	0x5D50	嵐 (<CJK Ideograph>)
 8024	0x5D34	崴 (<CJK Ideograph>)
 8025	0x5D47	嵇 (<CJK Ideograph>)
 8026	0x5DFD	巽 (<CJK Ideograph>)
 8027	0x5E45	幅 (<CJK Ideograph>)
 8028	0x5E3D	帽 (<CJK Ideograph>)
 8029	0x5E40	幀 (<CJK Ideograph>)
 8030	0x5E43	幃 (<CJK Ideograph>)
 8031	0x5E7E	幾 (<CJK Ideograph>)
 8032	0x5ECA	廊 (<CJK Ideograph>)
 8033	0x5EC1	廁 (<CJK Ideograph>)
 8034	0x5EC2	廂 (<CJK Ideograph>)
 8035	0x5EC4	廄 (<CJK Ideograph>)
 8036	0x5F3C	弼 (<CJK Ideograph>)
 8037	0x5F6D	彭 (<CJK Ideograph>)
 8038	0x5FA9	復 (<CJK Ideograph>)
 8039	0x5FAA	循 (<CJK Ideograph>)
 8040	0x5FA8	徨 (<CJK Ideograph>)
 8041	0x60D1	惑 (<CJK Ideograph>)
 8042	0x60E1	惡 (<CJK Ideograph>)
 8043	0x60B2	悲 (<CJK Ideograph>)
 8044	0x60B6	悶 (<CJK Ideograph>)
 8045	0x60E0	惠 (<CJK Ideograph>)
 8046	0x611C	愜 (<CJK Ideograph>)
 8047	0x6123	愣 (<CJK Ideograph>)
 8048	0x60FA	惺 (<CJK Ideograph>)
 8049	0x6115	愕 (<CJK Ideograph>)
 8050	0x60F0	惰 (<CJK Ideograph>)
 8051	0x60FB	惻 (<CJK Ideograph>)
 8052	0x60F4	惴 (<CJK Ideograph>)
 8053	0x6168	慨 (<CJK Ideograph>)
 8054	0x60F1	惱 (<CJK Ideograph>)
 8055	0x610E	愎 (<CJK Ideograph>)
 8056	0x60F6	惶 (<CJK Ideograph>)
 8057	0x6109	愉 (<CJK Ideograph>)
 8058	0x6100	愀 (<CJK Ideograph>)
 8059	0x6112	愒 (<CJK Ideograph>)
 8060	0x621F	戟 (<CJK Ideograph>)
 8061	0x6249	扉 (<CJK Ideograph>)
 8062	0x63A3	掣 (<CJK Ideograph>)
 8063	0x638C	掌 (<CJK Ideograph>)
 8064	0x63CF	描 (<CJK Ideograph>)
 8065	0x63C0	揀 (<CJK Ideograph>)
 8066	0x63E9	揩 (<CJK Ideograph>)
 8067	0x63C9	揉 (<CJK Ideograph>)
 8068	0x63C6	揆 (<CJK Ideograph>)
 8069	0x63CD	揍 (<CJK Ideograph>)
 8070	0x63D2	插 (<CJK Ideograph>)
 8071	0x63E3	揣 (<CJK Ideograph>)
 8072	0x63D0	提 (<CJK Ideograph>)
 8073	0x63E1	握 (<CJK Ideograph>)
 8074	0x63D6	揖 (<CJK Ideograph>)
 8075	0x63ED	揭 (<CJK Ideograph>)
 8076	0x63EE	揮 (<CJK Ideograph>)
 8077	0x6376	捶 (<CJK Ideograph>)
 8078	0x63F4	援 (<CJK Ideograph>)
 8079	0x63EA	揪 (<CJK Ideograph>)
 8080	0x63DB	換 (<CJK Ideograph>)
 8081	0x6452	摒 (<CJK Ideograph>)
 8082	0x63DA	揚 (<CJK Ideograph>)
 8083	0x63F9	揹 (<CJK Ideograph>)
 8084	0x655E	敞 (<CJK Ideograph>)
 8085	0x6566	敦 (<CJK Ideograph>)
 8086	0x6562	敢 (<CJK Ideograph>)
 8087	0x6563	散 (<CJK Ideograph>)
 8088	0x6591	斑 (<CJK Ideograph>)
 8089	0x6590	斐 (<CJK Ideograph>)
 8090	0x65AF	斯 (<CJK Ideograph>)
 8091	0x666E	普 (<CJK Ideograph>)
 8092	0x6670	晰 (<CJK Ideograph>)
 8093	0x6674	晴 (<CJK Ideograph>)
 8094	0x6676	晶 (<CJK Ideograph>)
 8095	0x666F	景 (<CJK Ideograph>)
 8096	0x6691	暑 (<CJK Ideograph>)
 8097	0x667A	智 (<CJK Ideograph>)
 8098	0x667E	晾 (<CJK Ideograph>)
 8099	0x6677	晷 (<CJK Ideograph>)
 8100	0x66FE	曾 (<CJK Ideograph>)
 8101	0x66FF	替 (<CJK Ideograph>)
 8102	0x671F	期 (<CJK Ideograph>)
 8103	0x671D	朝 (<CJK Ideograph>)
 8104	0x68FA	棺 (<CJK Ideograph>)
 8105	0x68D5	棕 (<CJK Ideograph>)
 8106	0x68E0	棠 (<CJK Ideograph>)
 8107	0x68D8	棘 (<CJK Ideograph>)
 8108	0x68D7	棗 (<CJK Ideograph>)
 8109	0x6905	椅 (<CJK Ideograph>)
 8110	0x68DF	棟 (<CJK Ideograph>)
 8111	0x68F5	棵 (<CJK Ideograph>)
 8112	0x68EE	森 (<CJK Ideograph>)
 8113	0x68E7	棧 (<CJK Ideograph>)
 8114	0x68F9	棹 (<CJK Ideograph>)
 8115	0x68D2	棒 (<CJK Ideograph>)
 8116	0x68F2	棲 (<CJK Ideograph>)
 8117	0x68E3	棣 (<CJK Ideograph>)
 8118	0x68CB	棋 (<CJK Ideograph>)
 8119	0x68CD	棍 (<CJK Ideograph>)
 8120	0x690D	植 (<CJK Ideograph>)
 8121	0x6912	椒 (<CJK Ideograph>)
 8122	0x690E	椎 (<CJK Ideograph>)
 8123	0x68C9	棉 (<CJK Ideograph>)
 8124	0x68DA	棚 (<CJK Ideograph>)
 8125	0x696E	楮 (<CJK Ideograph>)
 8126	0x68FB	棻 (<CJK Ideograph>)
 8127	0x6B3E	款 (<CJK Ideograph>)
 8128	0x6B3A	欺 (<CJK Ideograph>)
 8129	0x6B3D	欽 (<CJK Ideograph>)
 8130	0x6B98	殘 (<CJK Ideograph>)
 8131	0x6B96	殖 (<CJK Ideograph>)
 8132	0x6BBC	殼 (<CJK Ideograph>)
 8133	0x6BEF	毯 (<CJK Ideograph>)
 8134	0x6C2E	氮 (<CJK Ideograph>)
 8135	0x6C2F	氯 (<CJK Ideograph>)
 8136	0x6C2C	氬 (<CJK Ideograph>)
 8137	0x6E2F	港 (<CJK Ideograph>)
 8138	0x6E38	游 (<CJK Ideograph>)
 8139	0x6E54	湔 (<CJK Ideograph>)
 8140	0x6E21	渡 (<CJK Ideograph>)
 8141	0x6E32	渲 (<CJK Ideograph>)
 8142	0x6E67	湧 (<CJK Ideograph>)
 8143	0x6E4A	湊 (<CJK Ideograph>)
 8144	0x6E20	渠 (<CJK Ideograph>)
 8145	0x6E25	渥 (<CJK Ideograph>)
 8146	0x6E23	渣 (<CJK Ideograph>)
 8147	0x6E1B	減 (<CJK Ideograph>)
 8148	0x6E5B	湛 (<CJK Ideograph>)
 8149	0x6E58	湘 (<CJK Ideograph>)
 8150	0x6E24	渤 (<CJK Ideograph>)
 8151	0x6E56	湖 (<CJK Ideograph>)
 8152	0x6E6E	湮 (<CJK Ideograph>)
 8153	0x6E2D	渭 (<CJK Ideograph>)
 8154	0x6E26	渦 (<CJK Ideograph>)
 8155	0x6E6F	湯 (<CJK Ideograph>)
 8156	0x6E34	渴 (<CJK Ideograph>)
 8157	0x6E4D	湍 (<CJK Ideograph>)
 8158	0x6E3A	渺 (<CJK Ideograph>)
 8159	0x6E2C	測 (<CJK Ideograph>)
 8160	0x6E43	湃 (<CJK Ideograph>)
 8161	0x6E1D	渝 (<CJK Ideograph>)
 8162	0x6E3E	渾 (<CJK Ideograph>)
 8163	0x6ECB	滋 (<CJK Ideograph>)
"#

/-- encoding_tables/whatwg/index-big5.txt:7022-7178 -/
noncomputable def index52 : List Text := lines! r#" 8164	0x6E89	溉 (<CJK Ideograph>)
 8165	0x6E19	渙 (<CJK Ideograph>)
 8166	0x6E4E	湎 (<CJK Ideograph>)
 8167	0x6E63	湣 (<CJK Ideograph>)
 8168	0x6E44	湄 (<CJK Ideograph>)
 8169	0x6E72	湲 (<CJK Ideograph>)
 8170	0x6E69	湩 (<CJK Ideograph>)
 8171	0x6E5F	湟 (<CJK Ideograph>)
 8172	0x7119	焙 (<CJK Ideograph>)
 8173	0x711A	焚 (<CJK Ideograph>)
 8174	0x7126	焦 (<CJK Ideograph>)
 8175	0x7130	焰 (<CJK Ideograph>)
 8176	0x7121	無 (<CJK Ideograph>)
 8177	0x7136	然 (<CJK Ideograph>)
 8178	0x716E	煮 (<CJK Ideograph>)
 8179	0x711C	焜 (<CJK Ideograph>)
 8180	0x724C	牌 (<CJK Ideograph>)
 8181	0x7284	犄 (<CJK Ideograph>)
 8182	0x7280	犀 (<CJK Ideograph>)
 8183	0x7336	猶 (<CJK Ideograph>)
 8184	0x7325	猥 (<CJK Ideograph>)
 8185	0x7334	猴 (<CJK Ideograph>)
 8186	0x7329	猩 (<CJK Ideograph>)
 8187	0x743A	琺 (<CJK Ideograph>)
 8188	0x742A	琪 (<CJK Ideograph>)
 8189	0x7433	琳 (<CJK Ideograph>)
 8190	0x7422	琢 (<CJK Ideograph>)
 8191	0x7425	琥 (<CJK Ideograph>)
 8192	0x7435	琵 (<CJK Ideograph>)
 8193	0x7436	琶 (<CJK Ideograph>)
 8194	0x7434	琴 (<CJK Ideograph>)
 8195	0x742F	琯 (<CJK Ideograph>)
 8196	0x741B	琛 (<CJK Ideograph>)
 8197	0x7426	琦 (<CJK Ideograph>)
 8198	0x7428	琨 (<CJK Ideograph>)
 8199	0x7525	甥 (<CJK Ideograph>)
 8200	0x7526	甦 (<CJK Ideograph>)
 8201	0x756B	畫 (<CJK Ideograph>)
 8202	0x756A	番 (<CJK Ideograph>)
 8203	0x75E2	痢 (<CJK Ideograph>)
 8204	0x75DB	痛 (<CJK Ideograph>)
 8205	0x75E3	痣 (<CJK Ideograph>)
 8206	0x75D9	痙 (<CJK Ideograph>)
 8207	0x75D8	痘 (<CJK Ideograph>)
 8208	0x75DE	痞 (<CJK Ideograph>)
 8209	0x75E0	痠 (<CJK Ideograph>)
 8210	0x767B	登 (<CJK Ideograph>)
 8211	0x767C	發 (<CJK Ideograph>)
 8212	0x7696	皖 (<CJK Ideograph>)
 8213	0x7693	皓 (<CJK Ideograph>)
 8214	0x76B4	皴 (<CJK Ideograph>)
 8215	0x76DC	盜 (<CJK Ideograph>)
 8216	0x774F	睏 (<CJK Ideograph>)
 8217	0x77ED	短 (<CJK Ideograph>)
 8218	0x785D	硝 (<CJK Ideograph>)
 8219	0x786C	硬 (<CJK Ideograph>)
 8220	0x786F	硯 (<CJK Ideograph>)
 8221	0x7A0D	稍 (<CJK Ideograph>)
 8222	0x7A08	稈 (<CJK Ideograph>)
 8223	0x7A0B	程 (<CJK Ideograph>)
 8224	0x7A05	稅 (<CJK Ideograph>)
 8225	0x7A00	稀 (<CJK Ideograph>)
 8226	0x7A98	窘 (<CJK Ideograph>)
 8227	0x7A97	窗 (<CJK Ideograph>)
 8228	0x7A96	窖 (<CJK Ideograph>)
 8229	0x7AE5	童 (<CJK Ideograph>)
 8230	0x7AE3	竣 (<CJK Ideograph>)
 8231	0x7B49	等 (<CJK Ideograph>)
 8232	0x7B56	策 (<CJK Ideograph>)
 8233	0x7B46	筆 (<CJK Ideograph>)
 8234	0x7B50	筐 (<CJK Ideograph>)
 8235	0x7B52	筒 (<CJK Ideograph>)
 8236	0x7B54	答 (<CJK Ideograph>)
 8237	0x7B4D	筍 (<CJK Ideograph>)
 8238	0x7B4B	筋 (<CJK Ideograph>)
 8239	0x7B4F	筏 (<CJK Ideograph>)
 8240	0x7B51	筑 (<CJK Ideograph>)
 8241	0x7C9F	粟 (<CJK Ideograph>)
 8242	0x7CA5	粥 (<CJK Ideograph>)
 8243	0x7D5E	絞 (<CJK Ideograph>)
 8244	0x7D50	結 (<CJK Ideograph>)
 8245	0x7D68	絨 (<CJK Ideograph>)
 8246	0x7D55	絕 (<CJK Ideograph>)
 8247	0x7D2B	紫 (<CJK Ideograph>)
 8248	0x7D6E	絮 (<CJK Ideograph>)
 8249	0x7D72	絲 (<CJK Ideograph>)
 8250	0x7D61	絡 (<CJK Ideograph>)
 8251	0x7D66	給 (<CJK Ideograph>)
 8252	0x7D62	絢 (<CJK Ideograph>)
 8253	0x7D70	絰 (<CJK Ideograph>)
 8254	0x7D73	絳 (<CJK Ideograph>)
 8255	0x5584	善 (<CJK Ideograph>)
 8256	0x7FD4	翔 (<CJK Ideograph>)
 8257	0x7FD5	翕 (<CJK Ideograph>)
 8258	0x800B	耋 (<CJK Ideograph>)
 8259	0x8052	聒 (<CJK Ideograph>)
 8260	0x8085	肅 (<CJK Ideograph>)
 8261	0x8155	腕 (<CJK Ideograph>)
 8262	0x8154	腔 (<CJK Ideograph>)
 8263	0x814B	腋 (<CJK Ideograph>)
 8264	0x8151	腑 (<CJK Ideograph>)
 8265	0x814E	腎 (<CJK Ideograph>)
 8266	0x8139	脹 (<CJK Ideograph>)
 8267	0x8146	腆 (<CJK Ideograph>)
 8268	0x813E	脾 (<CJK Ideograph>)
 8269	0x814C	腌 (<CJK Ideograph>)
 8270	0x8153	腓 (<CJK Ideograph>)
 8271	0x8174	腴 (<CJK Ideograph>)
 8272	0x8212	舒 (<CJK Ideograph>)
 8273	0x821C	舜 (<CJK Ideograph>)
 8274	0x83E9	菩 (<CJK Ideograph>)
 8275	0x8403	萃 (<CJK Ideograph>)
 8276	0x83F8	菸 (<CJK Ideograph>)
 8277	0x840D	萍 (<CJK Ideograph>)
 8278	0x83E0	菠 (<CJK Ideograph>)
 8279	0x83C5	菅 (<CJK Ideograph>)
 8280	0x840B	萋 (<CJK Ideograph>)
 8281	0x83C1	菁 (<CJK Ideograph>)
 8282	0x83EF	華 (<CJK Ideograph>)
 8283	0x83F1	菱 (<CJK Ideograph>)
 8284	0x83F4	菴 (<CJK Ideograph>)
 8285	0x8457	著 (<CJK Ideograph>)
 8286	0x840A	萊 (<CJK Ideograph>)
 8287	0x83F0	菰 (<CJK Ideograph>)
 8288	0x840C	萌 (<CJK Ideograph>)
 8289	0x83CC	菌 (<CJK Ideograph>)
 8290	0x83FD	菽 (<CJK Ideograph>)
 8291	0x83F2	菲 (<CJK Ideograph>)
 8292	0x83CA	菊 (<CJK Ideograph>)
 8293	0x8438	萸 (<CJK Ideograph>)
 8294	0x840E	萎 (<CJK Ideograph>)
 8295	0x8404	萄 (<CJK Ideograph>)
 8296	0x83DC	菜 (<CJK Ideograph>)
 8297	0x8407	萇 (<CJK Ideograph>)
 8298	0x83D4	菔 (<CJK Ideograph>)
 8299	0x83DF	菟 (<CJK Ideograph>)
 8300	0x865B	虛 (<CJK Ideograph>)
 8301	0x86DF	蛟 (<CJK Ideograph>)
 8302	0x86D9	蛙 (<CJK Ideograph>)
 8303	0x86ED	蛭 (<CJK Ideograph>)
 8304	0x86D4	蛔 (<CJK Ideograph>)
 8305	0x86DB	蛛 (<CJK Ideograph>)
 8306	0x86E4	蛤 (<CJK Ideograph>)
 8307	0x86D0	蛐 (<CJK Ideograph>)
 8308	0x86DE	蛞 (<CJK Ideograph>)
 8309	0x8857	街 (<CJK Ideograph>)
 8310	0x88C1	裁 (<CJK Ideograph>)
 8311	0x88C2	裂 (<CJK Ideograph>)
 8312	0x88B1	袱 (<CJK Ideograph>)
 8313	0x8983	覃 (<CJK Ideograph>)
 8314	0x8996	視 (<CJK Ideograph>)
 8315	0x8A3B	註 (<CJK Ideograph>)
 8316	0x8A60	詠 (<CJK Ideograph>)
 8317	0x8A55	評 (<CJK Ideograph>)
 8318	0x8A5E	詞 (<CJK Ideograph>)
 8319	0x8A3C	証 (<CJK Ideograph>)
 8320	0x8A41	詁 (<CJK Ideograph>)
"#

/-- encoding_tables/whatwg/index-big5.txt:7179-7335 -/
noncomputable def index53 : List Text := lines! r#" 8321	0x8A54	詔 (<CJK Ideograph>)
 8322	0x8A5B	詛 (<CJK Ideograph>)
 8323	0x8A50	詐 (<CJK Ideograph>)
 8324	0x8A46	詆 (<CJK Ideograph>)
 8325	0x8A34	訴 (<CJK Ideograph>)
 8326	0x8A3A	診 (<CJK Ideograph>)
 8327	0x8A36	訶 (<CJK Ideograph>)
 8328	0x8A56	詖 (<CJK Ideograph>)
 8329	0x8C61	象 (<CJK Ideograph>)
 8330	0x8C82	貂 (<CJK Ideograph>)
 8331	0x8CAF	貯 (<CJK Ideograph>)
 8332	0x8CBC	貼 (<CJK Ideograph>)
 8333	0x8CB3	貳 (<CJK Ideograph>)
 8334	0x8CBD	貽 (<CJK Ideograph>)
 8335	0x8CC1	賁 (<CJK Ideograph>)
 8336	0x8CBB	費 (<CJK Ideograph>)
 8337	0x8CC0	賀 (<CJK Ideograph>)
 8338	0x8CB4	貴 (<CJK Ideograph>)
 8339	0x8CB7	買 (<CJK Ideograph>)
 8340	0x8CB6	貶 (<CJK Ideograph>)
 8341	0x8CBF	貿 (<CJK Ideograph>)
 8342	0x8CB8	貸 (<CJK Ideograph>)
 8343	0x8D8A	越 (<CJK Ideograph>)
 8344	0x8D85	超 (<CJK Ideograph>)
 8345	0x8D81	趁 (<CJK Ideograph>)
 8346	0x8DCE	跎 (<CJK Ideograph>)
 8347	0x8DDD	距 (<CJK Ideograph>)
 8348	0x8DCB	跋 (<CJK Ideograph>)
 8349	0x8DDA	跚 (<CJK Ideograph>)
 8350	0x8DD1	跑 (<CJK Ideograph>)
 8351	0x8DCC	跌 (<CJK Ideograph>)
 8352	0x8DDB	跛 (<CJK Ideograph>)
 8353	0x8DC6	跆 (<CJK Ideograph>)
 8354	0x8EFB	軻 (<CJK Ideograph>)
 8355	0x8EF8	軸 (<CJK Ideograph>)
 8356	0x8EFC	軼 (<CJK Ideograph>)
 8357	0x8F9C	辜 (<CJK Ideograph>)
 8358	0x902E	逮 (<CJK Ideograph>)
 8359	0x9035	逵 (<CJK Ideograph>)
 8360	0x9031	週 (<CJK Ideograph>)
 8361	0x9038	逸 (<CJK Ideograph>)
 8362	0x9032	進 (<CJK Ideograph>)
 8363	0x9036	逶 (<CJK Ideograph>)
 8364	0x9102	鄂 (<CJK Ideograph>)
 8365	0x90F5	郵 (<CJK Ideograph>)
 8366	0x9109	鄉 (<CJK Ideograph>)
 8367	0x90FE	郾 (<CJK Ideograph>)
 8368	0x9163	酣 (<CJK Ideograph>)
 8369	0x9165	酥 (<CJK Ideograph>)
 8370	0x91CF	量 (<CJK Ideograph>)
 8371	0x9214	鈔 (<CJK Ideograph>)
 8372	0x9215	鈕 (<CJK Ideograph>)
 8373	0x9223	鈣 (<CJK Ideograph>)
 8374	0x9209	鈉 (<CJK Ideograph>)
 8375	0x921E	鈞 (<CJK Ideograph>)
 8376	0x920D	鈍 (<CJK Ideograph>)
 8377	0x9210	鈐 (<CJK Ideograph>)
 8378	0x9207	鈇 (<CJK Ideograph>)
 8379	0x9211	鈑 (<CJK Ideograph>)
 8380	0x9594	閔 (<CJK Ideograph>)
 8381	0x958F	閏 (<CJK Ideograph>)
 8382	0x958B	開 (<CJK Ideograph>)
 8383	0x9591	閑 (<CJK Ideograph>)
 8384	0x9593	間 (<CJK Ideograph>)
 8385	0x9592	閒 (<CJK Ideograph>)
 8386	0x958E	閎 (<CJK Ideograph>)
 8387	0x968A	隊 (<CJK Ideograph>)
 8388	0x968E	階 (<CJK Ideograph>)
 8389	0x968B	隋 (<CJK Ideograph>)
 8390	0x967D	陽 (<CJK Ideograph>)
 8391	0x9685	隅 (<CJK Ideograph>)
 8392	0x9686	隆 (<CJK Ideograph>)
 8393	0x968D	隍 (<CJK Ideograph>)
 8394	0x9672	陲 (<CJK Ideograph>)
 8395	0x9684	隄 (<CJK Ideograph>)
 8396	0x96C1	雁 (<CJK Ideograph>)
 8397	0x96C5	雅 (<CJK Ideograph>)
 8398	0x96C4	雄 (<CJK Ideograph>)
 8399	0x96C6	集 (<CJK Ideograph>)
 8400	0x96C7	雇 (<CJK Ideograph>)
 8401	0x96EF	雯 (<CJK Ideograph>)
 8402	0x96F2	雲 (<CJK Ideograph>)
 8403	0x97CC	韌 (<CJK Ideograph>)
 8404	0x9805	項 (<CJK Ideograph>)
 8405	0x9806	順 (<CJK Ideograph>)
 8406	0x9808	須 (<CJK Ideograph>)
 8407	0x98E7	飧 (<CJK Ideograph>)
 8408	0x98EA	飪 (<CJK Ideograph>)
 8409	0x98EF	飯 (<CJK Ideograph>)
 8410	0x98E9	飩 (<CJK Ideograph>)
 8411	0x98F2	飲 (<CJK Ideograph>)
 8412	0x98ED	飭 (<CJK Ideograph>)
 8413	0x99AE	馮 (<CJK Ideograph>)
 8414	0x99AD	馭 (<CJK Ideograph>)
 8415	0x9EC3	黃 (<CJK Ideograph>)
 8416	0x9ECD	黍 (<CJK Ideograph>)
 8417	0x9ED1	黑 (<CJK Ideograph>)
 8418	0x4E82	亂 (<CJK Ideograph>)
 8419	0x50AD	傭 (<CJK Ideograph>)
 8420	0x50B5	債 (<CJK Ideograph>)
 8421	0x50B2	傲 (<CJK Ideograph>)
 8422	0x50B3	傳 (<CJK Ideograph>)
 8423	0x50C5	僅 (<CJK Ideograph>)
 8424	0x50BE	傾 (<CJK Ideograph>)
 8425	0x50AC	催 (<CJK Ideograph>)
 8426	0x50B7	傷 (<CJK Ideograph>)
 8427	0x50BB	傻 (<CJK Ideograph>)
 8428	0x50AF	傯 (<CJK Ideograph>)
 8429	0x50C7	僇 (<CJK Ideograph>)
 8430	0x527F	剿 (<CJK Ideograph>)
 8431	0x5277	剷 (<CJK Ideograph>)
 8432	0x527D	剽 (<CJK Ideograph>)
 8433	0x52DF	募 (<CJK Ideograph>)
 8434	0x52E6	勦 (<CJK Ideograph>)
 8435	0x52E4	勤 (<CJK Ideograph>)
 8436	0x52E2	勢 (<CJK Ideograph>)
 8437	0x52E3	勣 (<CJK Ideograph>)
 8438	0x532F	匯 (<CJK Ideograph>)
 8439	0x55DF	嗟 (<CJK Ideograph>)
 8440	0x55E8	嗨 (<CJK Ideograph>)
 8441	0x55D3	嗓 (<CJK Ideograph>)
 8442	0x55E6	嗦 (<CJK Ideograph>)
 8443	0x55CE	嗎 (<CJK Ideograph>)
 8444	0x55DC	嗜 (<CJK Ideograph>)
 8445	0x55C7	嗇 (<CJK Ideograph>)
 8446	0x55D1	嗑 (<CJK Ideograph>)
 8447	0x55E3	嗣 (<CJK Ideograph>)
 8448	0x55E4	嗤 (<CJK Ideograph>)
 8449	0x55EF	嗯 (<CJK Ideograph>)
 8450	0x55DA	嗚 (<CJK Ideograph>)
 8451	0x55E1	嗡 (<CJK Ideograph>)
 8452	0x55C5	嗅 (<CJK Ideograph>)
 8453	0x55C6	嗆 (<CJK Ideograph>)
 8454	0x55E5	嗥 (<CJK Ideograph>)
 8455	0x55C9	嗉 (<CJK Ideograph>)
 8456	0x5712	園 (<CJK Ideograph>)
 8457	0x5713	圓 (<CJK Ideograph>)
 8458	0x585E	塞 (<CJK Ideograph>)
 8459	0x5851	塑 (<CJK Ideograph>)
 8460	0x5858	塘 (<CJK Ideograph>)
 8461	0x5857	塗 (<CJK Ideograph>)
 8462	0x585A	塚 (<CJK Ideograph>)
 8463	0x5854	塔 (<CJK Ideograph>)
 8464	0x586B	填 (<CJK Ideograph>)
 8465	0x584C	塌 (<CJK Ideograph>)
 8466	0x586D	塭 (<CJK Ideograph>)
 8467	0x584A	塊 (<CJK Ideograph>)
 8468	0x5862	塢 (<CJK Ideograph>)
 8469	0x5852	塒 (<CJK Ideograph>)
 8470	0x584B	塋 (<CJK Ideograph>)
 8471	0x5967	奧 (<CJK Ideograph>)
 8472	0x5AC1	嫁 (<CJK Ideograph>)
 8473	0x5AC9	嫉 (<CJK Ideograph>)
 8474	0x5ACC	嫌 (<CJK Ideograph>)
 8475	0x5ABE	媾 (<CJK Ideograph>)
 8476	0x5ABD	媽 (<CJK Ideograph>)
 8477	0x5ABC	媼 (<CJK Ideograph>)
"#

/-- encoding_tables/whatwg/index-big5.txt:7336-7492 -/
noncomputable def index54 : List Text := lines! r#" 8478	0x5AB3	媳 (<CJK Ideograph>)
 8479	0x5AC2	嫂 (<CJK Ideograph>)
 8480	0x5AB2	媲 (<CJK Ideograph>)
 8481	0x5D69	嵩 (<CJK Ideograph>)
 8482	0x5D6F	嵯 (<CJK Ideograph>)
 8483	0x5E4C	幌 (<CJK Ideograph>)
 8484	0x5E79	幹 (<CJK Ideograph>)
 8485	0x5EC9	廉 (<CJK Ideograph>)
 8486	0x5EC8	廈 (<CJK Ideograph>)
 8487	0x5F12	弒 (<CJK Ideograph>)
 8488	0x5F59	彙 (<CJK Ideograph>)
 8489	0x5FAC	徬 (<CJK Ideograph>)
 8490	0x5FAE	微 (<CJK Ideograph>)
 8491	0x611A	愚 (<CJK Ideograph>)
 8492	0x610F	意 (<CJK Ideograph>)
 8493	0x6148	慈 (<CJK Ideograph>)
 8494	0x611F	感 (<CJK Ideograph>)
 8495	0x60F3	想 (<CJK Ideograph>)
 8496	0x611B	愛 (<CJK Ideograph>)
 8497	0x60F9	惹 (<CJK Ideograph>)
 8498	0x6101	愁 (<CJK Ideograph>)
 8499	0x6108	愈 (<CJK Ideograph>)
 8500	0x614E	慎 (<CJK Ideograph>)
 8501	0x614C	慌 (<CJK Ideograph>)
 8502	0x6144	慄 (<CJK Ideograph>)
 8503	0x614D	慍 (<CJK Ideograph>)
 8504	0x613E	愾 (<CJK Ideograph>)
 8505	0x6134	愴 (<CJK Ideograph>)
 8506	0x6127	愧 (<CJK Ideograph>)
 8507	0x610D	愍 (<CJK Ideograph>)
 8508	0x6106	愆 (<CJK Ideograph>)
 8509	0x6137	愷 (<CJK Ideograph>)
 8510	0x6221	戡 (<CJK Ideograph>)
 8511	0x6222	戢 (<CJK Ideograph>)
 8512	0x6413	搓 (<CJK Ideograph>)
 8513	0x643E	搾 (<CJK Ideograph>)
 8514	0x641E	搞 (<CJK Ideograph>)
 8515	0x642A	搪 (<CJK Ideograph>)
 8516	0x642D	搭 (<CJK Ideograph>)
 8517	0x643D	搽 (<CJK Ideograph>)
 8518	0x642C	搬 (<CJK Ideograph>)
 8519	0x640F	搏 (<CJK Ideograph>)
 8520	0x641C	搜 (<CJK Ideograph>)
 8521	0x6414	搔 (<CJK Ideograph>)
 8522	0x640D	損 (<CJK Ideograph>)
 8523	0x6436	搶 (<CJK Ideograph>)
 8524	0x6416	搖 (<CJK Ideograph>)
 8525	0x6417	搗 (<CJK Ideograph>)
 8526	0x6406	搆 (<CJK Ideograph>)
 8527	0x656C	敬 (<CJK Ideograph>)
 8528	0x659F	斟 (<CJK Ideograph>)
 8529	0x65B0	新 (<CJK Ideograph>)
 8530	0x6697	暗 (<CJK Ideograph>)
 8531	0x6689	暉 (<CJK Ideograph>)
 8532	0x6687	暇 (<CJK Ideograph>)
 8533	0x6688	暈 (<CJK Ideograph>)
 8534	0x6696	暖 (<CJK Ideograph>)
 8535	0x6684	暄 (<CJK Ideograph>)
 8536	0x6698	暘 (<CJK Ideograph>)
 8537	0x668D	暍 (<CJK Ideograph>)
 8538	0x6703	會 (<CJK Ideograph>)
 8539	0x6994	榔 (<CJK Ideograph>)
 8540	0x696D	業 (<CJK Ideograph>)
 8541	0x695A	楚 (<CJK Ideograph>)
 8542	0x6977	楷 (<CJK Ideograph>)
 8543	0x6960	楠 (<CJK Ideograph>)
 8544	0x6954	楔 (<CJK Ideograph>)
 8545	0x6975	極 (<CJK Ideograph>)
 8546	0x6930	椰 (<CJK Ideograph>)
 8547	0x6982	概 (<CJK Ideograph>)
 8548	0x694A	楊 (<CJK Ideograph>)
 8549	0x6968	楨 (<CJK Ideograph>)
 8550	0x696B	楫 (<CJK Ideograph>)
 8551	0x695E	楞 (<CJK Ideograph>)
 8552	0x6953	楓 (<CJK Ideograph>)
 8553	0x6979	楹 (<CJK Ideograph>)
 8554	0x6986	榆 (<CJK Ideograph>)
 8555	0x695D	楝 (<CJK Ideograph>)
 8556	0x6963	楣 (<CJK Ideograph>)
 8557	0x695B	楛 (<CJK Ideograph>)
 8558	0x6B47	歇 (<CJK Ideograph>)
 8559	0x6B72	歲 (<CJK Ideograph>)
 8560	0x6BC0	毀 (<CJK Ideograph>)
 8561	0x6BBF	殿 (<CJK Ideograph>)
 8562	0x6BD3	毓 (<CJK Ideograph>)
 8563	0x6BFD	毽 (<CJK Ideograph>)
 8564	0x6EA2	溢 (<CJK Ideograph>)
 8565	0x6EAF	溯 (<CJK Ideograph>)
 8566	0x6ED3	滓 (<CJK Ideograph>)
 8567	0x6EB6	溶 (<CJK Ideograph>)
 8568	0x6EC2	滂 (<CJK Ideograph>)
 8569	0x6E90	源 (<CJK Ideograph>)
 8570	0x6E9D	溝 (<CJK Ideograph>)
 8571	0x6EC7	滇 (<CJK Ideograph>)
 8572	0x6EC5	滅 (<CJK Ideograph>)
 8573	0x6EA5	溥 (<CJK Ideograph>)
 8574	0x6E98	溘 (<CJK Ideograph>)
 8575	0x6EBC	溼 (<CJK Ideograph>)
 8576	0x6EBA	溺 (<CJK Ideograph>)
 8577	0x6EAB	溫 (<CJK Ideograph>)
 8578	0x6ED1	滑 (<CJK Ideograph>)
 8579	0x6E96	準 (<CJK Ideograph>)
 8580	0x6E9C	溜 (<CJK Ideograph>)
 8581	0x6EC4	滄 (<CJK Ideograph>)
 8582	0x6ED4	滔 (<CJK Ideograph>)
 8583	0x6EAA	溪 (<CJK Ideograph>)
 8584	0x6EA7	溧 (<CJK Ideograph>)
 8585	0x6EB4	溴 (<CJK Ideograph>)
 8586	0x714E	煎 (<CJK Ideograph>)
 8587	0x7159	煙 (<CJK Ideograph>)
 8588	0x7169	煩 (<CJK Ideograph>)
 8589	0x7164	煤 (<CJK Ideograph>)
 8590	0x7149	煉 (<CJK Ideograph>)
 8591	0x7167	照 (<CJK Ideograph>)
 8592	0x715C	煜 (<CJK Ideograph>)
 8593	0x716C	煬 (<CJK Ideograph>)
 8594	0x7166	煦 (<CJK Ideograph>)
 8595	0x714C	煌 (<CJK Ideograph>)
 8596	0x7165	煥 (<CJK Ideograph>)
 8597	0x715E	煞 (<CJK Ideograph>)
 8598	0x7146	煆 (<CJK Ideograph>)
 8599	0x7168	煨 (<CJK Ideograph>)
 8600	0x7156	煖 (<CJK Ideograph>)
 8601	0x723A	爺 (<CJK Ideograph>)
 8602	0x7252	牒 (<CJK Ideograph>)
 8603	0x7337	猷 (<CJK Ideograph>)
 8604	0x7345	獅 (<CJK Ideograph>)
 8605	0x733F	猿 (<CJK Ideograph>)
 8606	0x733E	猾 (<CJK Ideograph>)
 8607	0x746F	瑯 (<CJK Ideograph>)
 8608	0x745A	瑚 (<CJK Ideograph>)
 8609	0x7455	瑕 (<CJK Ideograph>)
 8610	0x745F	瑟 (<CJK Ideograph>)
 8611	0x745E	瑞 (<CJK Ideograph>)
 8612	0x7441	瑁 (<CJK Ideograph>)
 8613	0x743F	琿 (<CJK Ideograph>)
 8614	0x7459	瑙 (<CJK Ideograph>)
 8615	0x745B	瑛 (<CJK Ideograph>)
 8616	0x745C	瑜 (<CJK Ideograph>)
 8617	0x7576	當 (<CJK Ideograph>)
 8618	0x7578	畸 (<CJK Ideograph>)
 8619	0x7600	瘀 (<CJK Ideograph>)
 8620	0x75F0	痰 (<CJK Ideograph>)
 8621	0x7601	瘁 (<CJK Ideograph>)
 8622	0x75F2	痲 (<CJK Ideograph>)
 8623	0x75F1	痱 (<CJK Ideograph>)
 8624	0x75FA	痺 (<CJK Ideograph>)
 8625	0x75FF	痿 (<CJK Ideograph>)
 8626	0x75F4	痴 (<CJK Ideograph>)
 8627	0x75F3	痳 (<CJK Ideograph>)
 8628	0x76DE	盞 (<CJK Ideograph>)
 8629	0x76DF	盟 (<CJK Ideograph>)
 8630	0x775B	睛 (<CJK Ideograph>)
 8631	0x776B	睫 (<CJK Ideograph>)
 8632	0x7766	睦 (<CJK Ideograph>)
 8633	0x775E	睞 (<CJK Ideograph>)
 8634	0x7763	督 (<CJK Ideograph>)
"#

/-- encoding_tables/whatwg/index-big5.txt:7493-7649 -/
noncomputable def index55 : List Text := lines! r#" 8635	0x7779	睹 (<CJK Ideograph>)
 8636	0x776A	睪 (<CJK Ideograph>)
 8637	0x776C	睬 (<CJK Ideograph>)
 8638	0x775C	睜 (<CJK Ideograph>)
 8639	0x7765	睥 (<CJK Ideograph>)
 8640	0x7768	睨 (<CJK Ideograph>)
 8641	0x7762	睢 (<CJK Ideograph>)
 8642	0x77EE	矮 (<CJK Ideograph>)
 8643	0x788E	碎 (<CJK Ideograph>)
 8644	0x78B0	碰 (<CJK Ideograph>)
 8645	0x7897	碗 (<CJK Ideograph>)
 8646	0x7898	碘 (<CJK Ideograph>)
 8647	0x788C	碌 (<CJK Ideograph>)
 8648	0x7889	碉 (<CJK Ideograph>)
 8649	0x787C	硼 (<CJK Ideograph>)
 8650	0x7891	碑 (<CJK Ideograph>)
 8651	0x7893	碓 (<CJK Ideograph>)
 8652	0x787F	硿 (<CJK Ideograph>)
 8653	0x797A	祺 (<CJK Ideograph>)
 8654	0x797F	祿 (<CJK Ideograph>)
 8655	0x7981	禁 (<CJK Ideograph>)
 8656	0x842C	萬 (<CJK Ideograph>)
 8657	0x79BD	禽 (<CJK Ideograph>)
 8658	0x7A1C	稜 (<CJK Ideograph>)
 8659	0x7A1A	稚 (<CJK Ideograph>)
 8660	0x7A20	稠 (<CJK Ideograph>)
 8661	0x7A14	稔 (<CJK Ideograph>)
 8662	0x7A1F	稟 (<CJK Ideograph>)
 8663	0x7A1E	稞 (<CJK Ideograph>)
 8664	0x7A9F	窟 (<CJK Ideograph>)
 8665	0x7AA0	窠 (<CJK Ideograph>)
 8666	0x7B77	筷 (<CJK Ideograph>)
 8667	0x7BC0	節 (<CJK Ideograph>)
 8668	0x7B60	筠 (<CJK Ideograph>)
 8669	0x7B6E	筮 (<CJK Ideograph>)
 8670	0x7B67	筧 (<CJK Ideograph>)
 8671	0x7CB1	粱 (<CJK Ideograph>)
 8672	0x7CB3	粳 (<CJK Ideograph>)
 8673	0x7CB5	粵 (<CJK Ideograph>)
 8674	0x7D93	經 (<CJK Ideograph>)
 8675	0x7D79	絹 (<CJK Ideograph>)
 8676	0x7D91	綑 (<CJK Ideograph>)
 8677	0x7D81	綁 (<CJK Ideograph>)
 8678	0x7D8F	綏 (<CJK Ideograph>)
 8679	0x7D5B	絛 (<CJK Ideograph>)
 8680	0x7F6E	置 (<CJK Ideograph>)
 8681	0x7F69	罩 (<CJK Ideograph>)
 8682	0x7F6A	罪 (<CJK Ideograph>)
 8683	0x7F72	署 (<CJK Ideograph>)
 8684	0x7FA9	義 (<CJK Ideograph>)
 8685	0x7FA8	羨 (<CJK Ideograph>)
 8686	0x7FA4	群 (<CJK Ideograph>)
 8687	0x8056	聖 (<CJK Ideograph>)
 8688	0x8058	聘 (<CJK Ideograph>)
 8689	0x8086	肆 (<CJK Ideograph>)
 8690	0x8084	肄 (<CJK Ideograph>)
 8691	0x8171	腱 (<CJK Ideograph>)
 8692	0x8170	腰 (<CJK Ideograph>)
 8693	0x8178	腸 (<CJK Ideograph>)
 8694	0x8165	腥 (<CJK Ideograph>)
 8695	0x816E	腮 (<CJK Ideograph>)
 8696	0x8173	腳 (<CJK Ideograph>)
 8697	0x816B	腫 (<CJK Ideograph>)
 8698	0x8179	腹 (<CJK Ideograph>)
 8699	0x817A	腺 (<CJK Ideograph>)
 8700	0x8166	腦 (<CJK Ideograph>)
 8701	0x8205	舅 (<CJK Ideograph>)
 8702	0x8247	艇 (<CJK Ideograph>)
 8703	0x8482	蒂 (<CJK Ideograph>)
 8704	0x8477	葷 (<CJK Ideograph>)
 8705	0x843D	落 (<CJK Ideograph>)
 8706	0x8431	萱 (<CJK Ideograph>)
 8707	0x8475	葵 (<CJK Ideograph>)
 8708	0x8466	葦 (<CJK Ideograph>)
 8709	0x846B	葫 (<CJK Ideograph>)
 8710	0x8449	葉 (<CJK Ideograph>)
 8711	0x846C	葬 (<CJK Ideograph>)
 8712	0x845B	葛 (<CJK Ideograph>)
 8713	0x843C	萼 (<CJK Ideograph>)
 8714	0x8435	萵 (<CJK Ideograph>)
 8715	0x8461	葡 (<CJK Ideograph>)
 8716	0x8463	董 (<CJK Ideograph>)
 8717	0x8469	葩 (<CJK Ideograph>)
 8718	0x846D	葭 (<CJK Ideograph>)
 8719	0x8446	葆 (<CJK Ideograph>)
 8720	0x865E	虞 (<CJK Ideograph>)
 8721	0x865C	虜 (<CJK Ideograph>)
 8722	0x865F	號 (<CJK Ideograph>)
 8723	0x86F9	蛹 (<CJK Ideograph>)
 8724	0x8713	蜓 (<CJK Ideograph>)
 8725	0x8708	蜈 (<CJK Ideograph>)
 8726	0x8707	蜇 (<CJK Ideograph>)
 8727	0x8700	蜀 (<CJK Ideograph>)
 8728	0x86FE	蛾 (<CJK Ideograph>)
 8729	0x86FB	蛻 (<CJK Ideograph>)
 8730	0x8702	蜂 (<CJK Ideograph>)
 8731	0x8703	蜃 (<CJK Ideograph>)
 8732	0x8706	蜆 (<CJK Ideograph>)
 8733	0x870A	蜊 (<CJK Ideograph>)
 8734	0x8859	衙 (<CJK Ideograph>)
 8735	0x88DF	裟 (<CJK Ideograph>)
 8736	0x88D4	裔 (<CJK Ideograph>)
 8737	0x88D9	裙 (<CJK Ideograph>)
 8738	0x88DC	補 (<CJK Ideograph>)
 8739	0x88D8	裘 (<CJK Ideograph>)
 8740	0x88DD	裝 (<CJK Ideograph>)
 8741	0x88E1	裡 (<CJK Ideograph>)
 8742	0x88CA	裊 (<CJK Ideograph>)
 8743	0x88D5	裕 (<CJK Ideograph>)
 8744	0x88D2	裒 (<CJK Ideograph>)
 8745	0x899C	覜 (<CJK Ideograph>)
 8746	0x89E3	解 (<CJK Ideograph>)
 8747	0x8A6B	詫 (<CJK Ideograph>)
 8748	0x8A72	該 (<CJK Ideograph>)
 8749	0x8A73	詳 (<CJK Ideograph>)
 8750	0x8A66	試 (<CJK Ideograph>)
 8751	0x8A69	詩 (<CJK Ideograph>)
 8752	0x8A70	詰 (<CJK Ideograph>)
 8753	0x8A87	誇 (<CJK Ideograph>)
 8754	0x8A7C	詼 (<CJK Ideograph>)
 8755	0x8A63	詣 (<CJK Ideograph>)
 8756	0x8AA0	誠 (<CJK Ideograph>)
 8757	0x8A71	話 (<CJK Ideograph>)
 8758	0x8A85	誅 (<CJK Ideograph>)
 8759	0x8A6D	詭 (<CJK Ideograph>)
 8760	0x8A62	詢 (<CJK Ideograph>)
 8761	0x8A6E	詮 (<CJK Ideograph>)
 8762	0x8A6C	詬 (<CJK Ideograph>)
 8763	0x8A79	詹 (<CJK Ideograph>)
 8764	0x8A7B	詻 (<CJK Ideograph>)
 8765	0x8A3E	訾 (<CJK Ideograph>)
 8766	0x8A68	詨 (<CJK Ideograph>)
 8767	0x8C62	豢 (<CJK Ideograph>)
 8768	0x8C8A	貊 (<CJK Ideograph>)
 8769	0x8C89	貉 (<CJK Ideograph>)
 8770	0x8CCA	賊 (<CJK Ideograph>)
 8771	0x8CC7	資 (<CJK Ideograph>)
 8772	0x8CC8	賈 (<CJK Ideograph>)
 8773	0x8CC4	賄 (<CJK Ideograph>)
 8774	0x8CB2	貲 (<CJK Ideograph>)
 8775	0x8CC3	賃 (<CJK Ideograph>)
 8776	0x8CC2	賂 (<CJK Ideograph>)
 8777	0x8CC5	賅 (<CJK Ideograph>)
 8778	0x8DE1	跡 (<CJK Ideograph>)
 8779	0x8DDF	跟 (<CJK Ideograph>)
 8780	0x8DE8	跨 (<CJK Ideograph>)
 8781	0x8DEF	路 (<CJK Ideograph>)
 8782	0x8DF3	跳 (<CJK Ideograph>)
 8783	0x8DFA	跺 (<CJK Ideograph>)
 8784	0x8DEA	跪 (<CJK Ideograph>)
 8785	0x8DE4	跤 (<CJK Ideograph>)
 8786	0x8DE6	跦 (<CJK Ideograph>)
 8787	0x8EB2	躲 (<CJK Ideograph>)
 8788	0x8F03	較 (<CJK Ideograph>)
 8789	0x8F09	載 (<CJK Ideograph>)
 8790	0x8EFE	軾 (<CJK Ideograph>)
 8791	0x8F0A	輊 (<CJK Ideograph>)
"#

/-- encoding_tables/whatwg/index-big5.txt:7650-7806 -/
noncomputable def index56 : List Text := lines! r#" 8792	0x8F9F	辟 (<CJK Ideograph>)
 8793	0x8FB2	農 (<CJK Ideograph>)
 8794	0x904B	運 (<CJK Ideograph>)
 8795	0x904A	遊 (<CJK Ideograph>)
 8796	0x9053	道 (<CJK Ideograph>)
 8797	0x9042	遂 (<CJK Ideograph>)
 8798	0x9054	達 (<CJK Ideograph>)
 8799	0x903C	逼 (<CJK Ideograph>)
 8800	0x9055	違 (<CJK Ideograph>)
 8801	0x9050	遐 (<CJK Ideograph>)
 8802	0x9047	遇 (<CJK Ideograph>)
 8803	0x904F	遏 (<CJK Ideograph>)
 8804	0x904E	過 (<CJK Ideograph>)
 8805	0x904D	遍 (<CJK Ideograph>)
 8806	0x9051	遑 (<CJK Ideograph>)
 8807	0x903E	逾 (<CJK Ideograph>)
 8808	0x9041	遁 (<CJK Ideograph>)
 8809	0x9112	鄒 (<CJK Ideograph>)
 8810	0x9117	鄗 (<CJK Ideograph>)
 8811	0x916C	酬 (<CJK Ideograph>)
 8812	0x916A	酪 (<CJK Ideograph>)
 8813	0x9169	酩 (<CJK Ideograph>)
 8814	0x91C9	釉 (<CJK Ideograph>)
 8815	0x9237	鈷 (<CJK Ideograph>)
 8816	0x9257	鉗 (<CJK Ideograph>)
 8817	0x9238	鈸 (<CJK Ideograph>)
 8818	0x923D	鈽 (<CJK Ideograph>)
 8819	0x9240	鉀 (<CJK Ideograph>)
 8820	0x923E	鈾 (<CJK Ideograph>)
 8821	0x925B	鉛 (<CJK Ideograph>)
 8822	0x924B	鉋 (<CJK Ideograph>)
 8823	0x9264	鉤 (<CJK Ideograph>)
 8824	0x9251	鉑 (<CJK Ideograph>)
 8825	0x9234	鈴 (<CJK Ideograph>)
 8826	0x9249	鉉 (<CJK Ideograph>)
 8827	0x924D	鉍 (<CJK Ideograph>)
 8828	0x9245	鉅 (<CJK Ideograph>)
 8829	0x9239	鈹 (<CJK Ideograph>)
 8830	0x923F	鈿 (<CJK Ideograph>)
 8831	0x925A	鉚 (<CJK Ideograph>)
 8832	0x9598	閘 (<CJK Ideograph>)
 8833	0x9698	隘 (<CJK Ideograph>)
 8834	0x9694	隔 (<CJK Ideograph>)
 8835	0x9695	隕 (<CJK Ideograph>)
 8836	0x96CD	雍 (<CJK Ideograph>)
 8837	0x96CB	雋 (<CJK Ideograph>)
 8838	0x96C9	雉 (<CJK Ideograph>)
 8839	0x96CA	雊 (<CJK Ideograph>)
 8840	0x96F7	雷 (<CJK Ideograph>)
 8841	0x96FB	電 (<CJK Ideograph>)
 8842	0x96F9	雹 (<CJK Ideograph>)
 8843	0x96F6	零 (<CJK Ideograph>)
 8844	0x9756	靖 (<CJK Ideograph>)
 8845	0x9774	靴 (<CJK Ideograph>)
 8846	0x9776	靶 (<CJK Ideograph>)
 8847	0x9810	預 (<CJK Ideograph>)
 8848	0x9811	頑 (<CJK Ideograph>)
 8849	0x9813	頓 (<CJK Ideograph>)
 8850	0x980A	頊 (<CJK Ideograph>)
 8851	0x9812	頒 (<CJK Ideograph>)
 8852	0x980C	頌 (<CJK Ideograph>)
 8853	0x98FC	飼 (<CJK Ideograph>)
 8854	0x98F4	飴 (<CJK Ideograph>)
 8855	0x98FD	飽 (<CJK Ideograph>)
 8856	0x98FE	飾 (<CJK Ideograph>)
 8857	0x99B3	馳 (<CJK Ideograph>)
 8858	0x99B1	馱 (<CJK Ideograph>)
 8859	0x99B4	馴 (<CJK Ideograph>)
 8860	0x9AE1	髡 (<CJK Ideograph>)
 8861	0x9CE9	鳩 (<CJK Ideograph>)
 8862	0x9E82	麂 (<CJK Ideograph>)
 8863	0x9F0E	鼎 (<CJK Ideograph>)
 8864	0x9F13	鼓 (<CJK Ideograph>)
 8865	0x9F20	鼠 (<CJK Ideograph>)
 8866	0x50E7	僧 (<CJK Ideograph>)
 8867	0x50EE	僮 (<CJK Ideograph>)
 8868	0x50E5	僥 (<CJK Ideograph>)
 8869	0x50D6	僖 (<CJK Ideograph>)
 8870	0x50ED	僭 (<CJK Ideograph>)
 8871	0x50DA	僚 (<CJK Ideograph>)
 8872	0x50D5	僕 (<CJK Ideograph>)
 8873	0x50CF	像 (<CJK Ideograph>)
 8874	0x50D1	僑 (<CJK Ideograph>)
 8875	0x50F1	僱 (<CJK Ideograph>)
 8876	0x50CE	僎 (<CJK Ideograph>)
 8877	0x50E9	僩 (<CJK Ideograph>)
 8878	0x5162	兢 (<CJK Ideograph>)
 8879	0x51F3	凳 (<CJK Ideograph>)
 8880	0x5283	劃 (<CJK Ideograph>)
 8881	0x5282	劂 (<CJK Ideograph>)
 8882	0x5331	匱 (<CJK Ideograph>)
 8883	0x53AD	厭 (<CJK Ideograph>)
 8884	0x55FE	嗾 (<CJK Ideograph>)
 8885	0x5600	嘀 (<CJK Ideograph>)
 8886	0x561B	嘛 (<CJK Ideograph>)
 8887	0x5617	嘗 (<CJK Ideograph>)
 8888	0x55FD	嗽 (<CJK Ideograph>)
 8889	0x5614	嘔 (<CJK Ideograph>)
 8890	0x5606	嘆 (<CJK Ideograph>)
 8891	0x5609	嘉 (<CJK Ideograph>)
 8892	0x560D	嘍 (<CJK Ideograph>)
 8893	0x560E	嘎 (<CJK Ideograph>)
 8894	0x55F7	嗷 (<CJK Ideograph>)
 8895	0x5616	嘖 (<CJK Ideograph>)
 8896	0x561F	嘟 (<CJK Ideograph>)
 8897	0x5608	嘈 (<CJK Ideograph>)
 8898	0x5610	嘐 (<CJK Ideograph>)
 8899	0x55F6	嗶 (<CJK Ideograph>)
 8900	0x5718	團 (<CJK Ideograph>)
 8901	0x5716	圖 (<CJK Ideograph>)
 8902	0x5875	塵 (<CJK Ideograph>)
 8903	0x587E	塾 (<CJK Ideograph>)
 8904	0x5883	境 (<CJK Ideograph>)
 8905	0x5893	墓 (<CJK Ideograph>)
 8906	0x588A	墊 (<CJK Ideograph>)
 8907	0x5879	塹 (<CJK Ideograph>)
 8908	0x5885	墅 (<CJK Ideograph>)
 8909	0x587D	塽 (<CJK Ideograph>)
 8910	0x58FD	壽 (<CJK Ideograph>)
 8911	0x5925	夥 (<CJK Ideograph>)
 8912	0x5922	夢 (<CJK Ideograph>)
 8913	0x5924	夤 (<CJK Ideograph>)
 8914	0x596A	奪 (<CJK Ideograph>)
 8915	0x5969	奩 (<CJK Ideograph>)
 8916	0x5AE1	嫡 (<CJK Ideograph>)
 8917	0x5AE6	嫦 (<CJK Ideograph>)
 8918	0x5AE9	嫩 (<CJK Ideograph>)
 8919	0x5AD7	嫗 (<CJK Ideograph>)
 8920	0x5AD6	嫖 (<CJK Ideograph>)
 8921	0x5AD8	嫘 (<CJK Ideograph>)
 8922	0x5AE3	嫣 (<CJK Ideograph>)
 8923	0x5B75	孵 (<CJK Ideograph>)
 8924	0x5BDE	寞 (<CJK Ideograph>)
 8925	0x5BE7	寧 (<CJK Ideograph>)
 8926	0x5BE1	寡 (<CJK Ideograph>)
 8927	0x5BE5	寥 (<CJK Ideograph>)
 8928	0x5BE6	實 (<CJK Ideograph>)
 8929	0x5BE8	寨 (<CJK Ideograph>)
 8930	0x5BE2	寢 (<CJK Ideograph>)
 8931	0x5BE4	寤 (<CJK Ideograph>)
 8932	0x5BDF	察 (<CJK Ideograph>)
 8933	0x5C0D	對 (<CJK Ideograph>)
 8934	0x5C62	屢 (<CJK Ideograph>)
 8935	0x5D84	嶄 (<CJK Ideograph>)
 8936	0x5D87	嶇 (<CJK Ideograph>)
 8937	0x5E5B	幛 (<CJK Ideograph>)
 8938	0x5E63	幣 (<CJK Ideograph>)
 8939	0x5E55	幕 (<CJK Ideograph>)
 8940	0x5E57	幗 (<CJK Ideograph>)
 8941	0x5E54	幔 (<CJK Ideograph>)
 8942	0x5ED3	廓 (<CJK Ideograph>)
 8943	0x5ED6	廖 (<CJK Ideograph>)
 8944	0x5F0A	弊 (<CJK Ideograph>)
 8945	0x5F46	彆 (<CJK Ideograph>)
 8946	0x5F70	彰 (<CJK Ideograph>)
 8947	0x5FB9	徹 (<CJK Ideograph>)
 8948	0x6147	慇 (<CJK Ideograph>)
"#

/-- encoding_tables/whatwg/index-big5.txt:7807-7963 -/
noncomputable def index57 : List Text := lines! r#" 8949	0x613F	愿 (<CJK Ideograph>)
 8950	0x614B	態 (<CJK Ideograph>)
 8951	0x6177	慷 (<CJK Ideograph>)
 8952	0x6162	慢 (<CJK Ideograph>)
 8953	0x6163	慣 (<CJK Ideograph>)
 8954	0x615F	慟 (<CJK Ideograph>)
 8955	0x615A	慚 (<CJK Ideograph>)
 8956	0x6158	慘 (<CJK Ideograph>)
 8957	0x6175	慵 (<CJK Ideograph>)
 8958	0x622A	截 (<CJK Ideograph>)
 8959	0x6487	撇 (<CJK Ideograph>)
 8960	0x6458	摘 (<CJK Ideograph>)
 8961	0x6454	摔 (<CJK Ideograph>)
 8962	0x64A4	撤 (<CJK Ideograph>)
 8963	0x6478	摸 (<CJK Ideograph>)
 8964	0x645F	摟 (<CJK Ideograph>)
 8965	0x647A	摺 (<CJK Ideograph>)
 8966	0x6451	摑 (<CJK Ideograph>)
 8967	0x6467	摧 (<CJK Ideograph>)
 8968	0x6434	搴 (<CJK Ideograph>)
 8969	0x646D	摭 (<CJK Ideograph>)
 8970	0x647B	摻 (<CJK Ideograph>)
 8971	0x6572	敲 (<CJK Ideograph>)
 8972	0x65A1	斡 (<CJK Ideograph>)
 8973	0x65D7	旗 (<CJK Ideograph>)
 8974	0x65D6	旖 (<CJK Ideograph>)
 8975	0x66A2	暢 (<CJK Ideograph>)
 8976	0x66A8	暨 (<CJK Ideograph>)
 8977	0x669D	暝 (<CJK Ideograph>)
 8978	0x699C	榜 (<CJK Ideograph>)
 8979	0x69A8	榨 (<CJK Ideograph>)
 8980	0x6995	榕 (<CJK Ideograph>)
 8981	0x69C1	槁 (<CJK Ideograph>)
 8982	0x69AE	榮 (<CJK Ideograph>)
 8983	0x69D3	槓 (<CJK Ideograph>)
 8984	0x69CB	構 (<CJK Ideograph>)
 8985	0x699B	榛 (<CJK Ideograph>)
 8986	0x69B7	榷 (<CJK Ideograph>)
 8987	0x69BB	榻 (<CJK Ideograph>)
 8988	0x69AB	榫 (<CJK Ideograph>)
 8989	0x69B4	榴 (<CJK Ideograph>)
 8990	0x69D0	槐 (<CJK Ideograph>)
 8991	0x69CD	槍 (<CJK Ideograph>)
 8992	0x69AD	榭 (<CJK Ideograph>)
 8993	0x69CC	槌 (<CJK Ideograph>)
 8994	0x69A6	榦 (<CJK Ideograph>)
 8995	0x69C3	槃 (<CJK Ideograph>)
 8996	0x69A3	榣 (<CJK Ideograph>)
 8997	0x6B49	歉 (<CJK Ideograph>)
 8998	0x6B4C	歌 (<CJK Ideograph>)
 8999	0x6C33	氳 (<CJK Ideograph>)
 9000	0x6F33	漳 (<CJK Ideograph>)
 9001	0x6F14	演 (<CJK Ideograph>)
 9002	0x6EFE	滾 (<CJK Ideograph>)
 9003	0x6F13	漓 (<CJK Ideograph>)
 9004	0x6EF4	滴 (<CJK Ideograph>)
 9005	0x6F29	漩 (<CJK Ideograph>)
 9006	0x6F3E	漾 (<CJK Ideograph>)
 9007	0x6F20	漠 (<CJK Ideograph>)
 9008	0x6F2C	漬 (<CJK Ideograph>)
 9009	0x6F0F	漏 (<CJK Ideograph>)
 9010	0x6F02	漂 (<CJK Ideograph>)
 9011	0x6F22	漢 (<CJK Ideograph>)
 9012	0x6EFF	滿 (<CJK Ideograph>)
 9013	0x6EEF	滯 (<CJK Ideograph>)
 9014	0x6F06	漆 (<CJK Ideograph>)
 9015	0x6F31	漱 (<CJK Ideograph>)
 9016	0x6F38	漸 (<CJK Ideograph>)
 9017	0x6F32	漲 (<CJK Ideograph>)
 9018	0x6F23	漣 (<CJK Ideograph>)
 9019	0x6F15	漕 (<CJK Ideograph>)
 9020	0x6F2B	漫 (<CJK Ideograph>)
 9021	0x6F2F	漯 (<CJK Ideograph>)
 9022	0x6F88	澈 (<CJK Ideograph>)
 9023	0x6F2A	漪 (<CJK Ideograph>)
 9024	0x6EEC	滬 (<CJK Ideograph>)
 9025	0x6F01	漁 (<CJK Ideograph>)
 9026	0x6EF2	滲 (<CJK Ideograph>)
 9027	0x6ECC	滌 (<CJK Ideograph>)
 9028	0x6EF7	滷 (<CJK Ideograph>)
 9029	0x7194	熔 (<CJK Ideograph>)
 9030	0x7199	熙 (<CJK Ideograph>)
 9031	0x717D	煽 (<CJK Ideograph>)
 9032	0x718A	熊 (<CJK Ideograph>)
 9033	0x7184	熄 (<CJK Ideograph>)
 9034	0x7192	熒 (<CJK Ideograph>)
 9035	0x723E	爾 (<CJK Ideograph>)
 9036	0x7292	犒 (<CJK Ideograph>)
 9037	0x7296	犖 (<CJK Ideograph>)
 9038	0x7344	獄 (<CJK Ideograph>)
 9039	0x7350	獐 (<CJK Ideograph>)
 9040	0x7464	瑤 (<CJK Ideograph>)
 9041	0x7463	瑣 (<CJK Ideograph>)
 9042	0x746A	瑪 (<CJK Ideograph>)
 9043	0x7470	瑰 (<CJK Ideograph>)
 9044	0x746D	瑭 (<CJK Ideograph>)
 9045	0x7504	甄 (<CJK Ideograph>)
 9046	0x7591	疑 (<CJK Ideograph>)
 9047	0x7627	瘧 (<CJK Ideograph>)
 9048	0x760D	瘍 (<CJK Ideograph>)
 9049	0x760B	瘋 (<CJK Ideograph>)
 9050	0x7609	瘉 (<CJK Ideograph>)
 9051	0x7613	瘓 (<CJK Ideograph>)
 9052	0x76E1	盡 (<CJK Ideograph>)
 9053	0x76E3	監 (<CJK Ideograph>)
 9054	0x7784	瞄 (<CJK Ideograph>)
 9055	0x777D	睽 (<CJK Ideograph>)
 9056	0x777F	睿 (<CJK Ideograph>)
 9057	0x7761	睡 (<CJK Ideograph>)
 9058	0x78C1	磁 (<CJK Ideograph>)
 9059	0x789F	碟 (<CJK Ideograph>)
 9060	0x78A7	碧 (<CJK Ideograph>)
 9061	0x78B3	碳 (<CJK Ideograph>)
 9062	0x78A9	碩 (<CJK Ideograph>)
 9063	0x78A3	碣 (<CJK Ideograph>)
 9064	0x798E	禎 (<CJK Ideograph>)
 9065	0x798F	福 (<CJK Ideograph>)
 9066	0x798D	禍 (<CJK Ideograph>)
 9067	0x7A2E	種 (<CJK Ideograph>)
 9068	0x7A31	稱 (<CJK Ideograph>)
 9069	0x7AAA	窪 (<CJK Ideograph>)
 9070	0x7AA9	窩 (<CJK Ideograph>)
 9071	0x7AED	竭 (<CJK Ideograph>)
 9072	0x7AEF	端 (<CJK Ideograph>)
 9073	0x7BA1	管 (<CJK Ideograph>)
 9074	0x7B95	箕 (<CJK Ideograph>)
 9075	0x7B8B	箋 (<CJK Ideograph>)
 9076	0x7B75	筵 (<CJK Ideograph>)
 9077	0x7B97	算 (<CJK Ideograph>)
 9078	0x7B9D	箝 (<CJK Ideograph>)
 9079	0x7B94	箔 (<CJK Ideograph>)
 9080	0x7B8F	箏 (<CJK Ideograph>)
 9081	0x7BB8	箸 (<CJK Ideograph>)
 9082	0x7B87	箇 (<CJK Ideograph>)
 9083	0x7B84	箄 (<CJK Ideograph>)
 9084	0x7CB9	粹 (<CJK Ideograph>)
 9085	0x7CBD	粽 (<CJK Ideograph>)
 9086	0x7CBE	精 (<CJK Ideograph>)
 9087	0x7DBB	綻 (<CJK Ideograph>)
 9088	0x7DB0	綰 (<CJK Ideograph>)
 9089	0x7D9C	綜 (<CJK Ideograph>)
 9090	0x7DBD	綽 (<CJK Ideograph>)
 9091	0x7DBE	綾 (<CJK Ideograph>)
 9092	0x7DA0	綠 (<CJK Ideograph>)
 9093	0x7DCA	緊 (<CJK Ideograph>)
 9094	0x7DB4	綴 (<CJK Ideograph>)
 9095	0x7DB2	網 (<CJK Ideograph>)
 9096	0x7DB1	綱 (<CJK Ideograph>)
 9097	0x7DBA	綺 (<CJK Ideograph>)
 9098	0x7DA2	綢 (<CJK Ideograph>)
 9099	0x7DBF	綿 (<CJK Ideograph>)
 9100	0x7DB5	綵 (<CJK Ideograph>)
 9101	0x7DB8	綸 (<CJK Ideograph>)
 9102	0x7DAD	維 (<CJK Ideograph>)
 9103	0x7DD2	緒 (<CJK Ideograph>)
 9104	0x7DC7	緇 (<CJK Ideograph>)
 9105	0x7DAC	綬 (<CJK Ideograph>)
"#

/-- encoding_tables/whatwg/index-big5.txt:7964-8120 -/
noncomputable def index58 : List Text := lines! r#" 9106	0x7F70	罰 (<CJK Ideograph>)
 9107	0x7FE0	翠 (<CJK Ideograph>)
 9108	0x7FE1	翡 (<CJK Ideograph>)
 9109	0x7FDF	翟 (<CJK Ideograph>)
 9110	0x805E	聞 (<CJK Ideograph>)
 9111	0x805A	聚 (<CJK Ideograph>)
 9112	0x8087	肇 (<CJK Ideograph>)
 9113	0x8150	腐 (<CJK Ideograph>)
 9114	0x8180	膀 (<CJK Ideograph>)
 9115	0x818F	膏 (<CJK Ideograph>)
 9116	0x8188	膈 (<CJK Ideograph>)
 9117	0x818A	膊 (<CJK Ideograph>)
 9118	0x817F	腿 (<CJK Ideograph>)
 9119	0x8182	膂 (<CJK Ideograph>)
 9120	0x81E7	臧 (<CJK Ideograph>)
 9121	0x81FA	臺 (<CJK Ideograph>)
 9122	0x8207	與 (<CJK Ideograph>)
 9123	0x8214	舔 (<CJK Ideograph>)
 9124	0x821E	舞 (<CJK Ideograph>)
 9125	0x824B	艋 (<CJK Ideograph>)
 9126	0x84C9	蓉 (<CJK Ideograph>)
 9127	0x84BF	蒿 (<CJK Ideograph>)
 9128	0x84C6	蓆 (<CJK Ideograph>)
 9129	0x84C4	蓄 (<CJK Ideograph>)
 9130	0x8499	蒙 (<CJK Ideograph>)
 9131	0x849E	蒞 (<CJK Ideograph>)
 9132	0x84B2	蒲 (<CJK Ideograph>)
 9133	0x849C	蒜 (<CJK Ideograph>)
 9134	0x84CB	蓋 (<CJK Ideograph>)
 9135	0x84B8	蒸 (<CJK Ideograph>)
 9136	0x84C0	蓀 (<CJK Ideograph>)
 9137	0x84D3	蓓 (<CJK Ideograph>)
 9138	0x8490	蒐 (<CJK Ideograph>)
 9139	0x84BC	蒼 (<CJK Ideograph>)
 9140	0x84D1	蓑 (<CJK Ideograph>)
 9141	0x84CA	蓊 (<CJK Ideograph>)
 9142	0x873F	蜿 (<CJK Ideograph>)
 9143	0x871C	蜜 (<CJK Ideograph>)
 9144	0x873B	蜻 (<CJK Ideograph>)
 9145	0x8722	蜢 (<CJK Ideograph>)
 9146	0x8725	蜥 (<CJK Ideograph>)
 9147	0x8734	蜴 (<CJK Ideograph>)
 9148	0x8718	蜘 (<CJK Ideograph>)
 9149	0x8755	蝕 (<CJK Ideograph>)
 9150	0x8737	蜷 (<CJK Ideograph>)
 9151	0x8729	蜩 (<CJK Ideograph>)
 9152	0x88F3	裳 (<CJK Ideograph>)
 9153	0x8902	褂 (<CJK Ideograph>)
 9154	0x88F4	裴 (<CJK Ideograph>)
 9155	0x88F9	裹 (<CJK Ideograph>)
 9156	0x88F8	裸 (<CJK Ideograph>)
 9157	0x88FD	製 (<CJK Ideograph>)
 9158	0x88E8	裨 (<CJK Ideograph>)
 9159	0x891A	褚 (<CJK Ideograph>)
 9160	0x88EF	裯 (<CJK Ideograph>)
 9161	0x8AA6	誦 (<CJK Ideograph>)
 9162	0x8A8C	誌 (<CJK Ideograph>)
 9163	0x8A9E	語 (<CJK Ideograph>)
 9164	0x8AA3	誣 (<CJK Ideograph>)
 9165	0x8A8D	認 (<CJK Ideograph>)
 9166	0x8AA1	誡 (<CJK Ideograph>)
 9167	0x8A93	誓 (<CJK Ideograph>)
 9168	0x8AA4	誤 (<CJK Ideograph>)
 9169	0x8AAA	說 (<CJK Ideograph>)
 9170	0x8AA5	誥 (<CJK Ideograph>)
 9171	0x8AA8	誨 (<CJK Ideograph>)
 9172	0x8A98	誘 (<CJK Ideograph>)
 9173	0x8A91	誑 (<CJK Ideograph>)
 9174	0x8A9A	誚 (<CJK Ideograph>)
 9175	0x8AA7	誧 (<CJK Ideograph>)
 9176	0x8C6A	豪 (<CJK Ideograph>)
 9177	0x8C8D	貍 (<CJK Ideograph>)
 9178	0x8C8C	貌 (<CJK Ideograph>)
 9179	0x8CD3	賓 (<CJK Ideograph>)
 9180	0x8CD1	賑 (<CJK Ideograph>)
 9181	0x8CD2	賒 (<CJK Ideograph>)
 9182	0x8D6B	赫 (<CJK Ideograph>)
 9183	0x8D99	趙 (<CJK Ideograph>)
 9184	0x8D95	趕 (<CJK Ideograph>)
 9185	0x8DFC	跼 (<CJK Ideograph>)
 9186	0x8F14	輔 (<CJK Ideograph>)
 9187	0x8F12	輒 (<CJK Ideograph>)
 9188	0x8F15	輕 (<CJK Ideograph>)
 9189	0x8F13	輓 (<CJK Ideograph>)
 9190	0x8FA3	辣 (<CJK Ideograph>)
 9191	0x9060	遠 (<CJK Ideograph>)
 9192	0x9058	遘 (<CJK Ideograph>)
 9193	0x905C	遜 (<CJK Ideograph>)
 9194	0x9063	遣 (<CJK Ideograph>)
 9195	0x9059	遙 (<CJK Ideograph>)
 9196	0x905E	遞 (<CJK Ideograph>)
 9197	0x9062	遢 (<CJK Ideograph>)
 9198	0x905D	遝 (<CJK Ideograph>)
 9199	0x905B	遛 (<CJK Ideograph>)
 9200	0x9119	鄙 (<CJK Ideograph>)
 9201	0x9118	鄘 (<CJK Ideograph>)
 9202	0x911E	鄞 (<CJK Ideograph>)
 9203	0x9175	酵 (<CJK Ideograph>)
 9204	0x9178	酸 (<CJK Ideograph>)
 9205	0x9177	酷 (<CJK Ideograph>)
 9206	0x9174	酴 (<CJK Ideograph>)
 9207	0x9278	鉸 (<CJK Ideograph>)
 9208	0x9280	銀 (<CJK Ideograph>)
 9209	0x9285	銅 (<CJK Ideograph>)
 9210	0x9298	銘 (<CJK Ideograph>)
 9211	0x9296	銖 (<CJK Ideograph>)
 9212	0x927B	鉻 (<CJK Ideograph>)
 9213	0x9293	銓 (<CJK Ideograph>)
 9214	0x929C	銜 (<CJK Ideograph>)
 9215	0x92A8	銨 (<CJK Ideograph>)
 9216	0x927C	鉼 (<CJK Ideograph>)
 9217	0x9291	銑 (<CJK Ideograph>)
 9218	0x95A1	閡 (<CJK Ideograph>)
 9219	0x95A8	閨 (<CJK Ideograph>)
 9220	0x95A9	閩 (<CJK Ideograph>)
 9221	0x95A3	閣 (<CJK Ideograph>)
 9222	0x95A5	閥 (<CJK Ideograph>)
 9223	0x95A4	閤 (<CJK Ideograph>)
 9224	0x9699	隙 (<CJK Ideograph>)
 9225	0x969C	障 (<CJK Ideograph>)
 9226	0x969B	際 (<CJK Ideograph>)
 9227	0x96CC	雌 (<CJK Ideograph>)
 9228	0x96D2	雒 (<CJK Ideograph>)
 9229	0x9700	需 (<CJK Ideograph>)
 9230	0x977C	靼 (<CJK Ideograph>)
 9231	0x9785	鞅 (<CJK Ideograph>)
 9232	0x97F6	韶 (<CJK Ideograph>)
 9233	0x9817	頗 (<CJK Ideograph>)
 9234	0x9818	領 (<CJK Ideograph>)
 9235	0x98AF	颯 (<CJK Ideograph>)
 9236	0x98B1	颱 (<CJK Ideograph>)
 9237	0x9903	餃 (<CJK Ideograph>)
 9238	0x9905	餅 (<CJK Ideograph>)
 9239	0x990C	餌 (<CJK Ideograph>)
 9240	0x9909	餉 (<CJK Ideograph>)
 9241	0x99C1	駁 (<CJK Ideograph>)
 9242	0x9AAF	骯 (<CJK Ideograph>)
 9243	0x9AB0	骰 (<CJK Ideograph>)
 9244	0x9AE6	髦 (<CJK Ideograph>)
 9245	0x9B41	魁 (<CJK Ideograph>)
 9246	0x9B42	魂 (<CJK Ideograph>)
 9247	0x9CF4	鳴 (<CJK Ideograph>)
 9248	0x9CF6	鳶 (<CJK Ideograph>)
 9249	0x9CF3	鳳 (<CJK Ideograph>)
 9250	0x9EBC	麼 (<CJK Ideograph>)
 9251	0x9F3B	鼻 (<CJK Ideograph>)
 9252	0x9F4A	齊 (<CJK Ideograph>)
 9253	0x5104	億 (<CJK Ideograph>)
 9254	0x5100	儀 (<CJK Ideograph>)
 9255	0x50FB	僻 (<CJK Ideograph>)
 9256	0x50F5	僵 (<CJK Ideograph>)
 9257	0x50F9	價 (<CJK Ideograph>)
 9258	0x5102	儂 (<CJK Ideograph>)
 9259	0x5108	儈 (<CJK Ideograph>)
 9260	0x5109	儉 (<CJK Ideograph>)
 9261	0x5105	儅 (<CJK Ideograph>)
 9262	0x51DC	凜 (<CJK Ideograph>)
"#

/-- encoding_tables/whatwg/index-big5.txt:8121-8277 -/
noncomputable def index59 : List Text := lines! r#" 9263	0x5287	劇 (<CJK Ideograph>)
 9264	0x5288	劈 (<CJK Ideograph>)
 9265	0x5289	劉 (<CJK Ideograph>)
 9266	0x528D	劍 (<CJK Ideograph>)
 9267	0x528A	劊 (<CJK Ideograph>)
 9268	0x52F0	勰 (<CJK Ideograph>)
 9269	0x53B2	厲 (<CJK Ideograph>)
 9270	0x562E	嘮 (<CJK Ideograph>)
 9271	0x563B	嘻 (<CJK Ideograph>)
 9272	0x5639	嘹 (<CJK Ideograph>)
 9273	0x5632	嘲 (<CJK Ideograph>)
 9274	0x563F	嘿 (<CJK Ideograph>)
 9275	0x5634	嘴 (<CJK Ideograph>)
 9276	0x5629	嘩 (<CJK Ideograph>)
 9277	0x5653	噓 (<CJK Ideograph>)
 9278	0x564E	噎 (<CJK Ideograph>)
 9279	0x5657	噗 (<CJK Ideograph>)
 9280	0x5674	噴 (<CJK Ideograph>)
 9281	0x5636	嘶 (<CJK Ideograph>)
 9282	0x562F	嘯 (<CJK Ideograph>)
 9283	0x5630	嘰 (<CJK Ideograph>)
 9284	0x5880	墀 (<CJK Ideograph>)
 9285	0x589F	墟 (<CJK Ideograph>)
 9286	0x589E	增 (<CJK Ideograph>)
 9287	0x58B3	墳 (<CJK Ideograph>)
 9288	0x589C	墜 (<CJK Ideograph>)
 9289	0x58AE	墮 (<CJK Ideograph>)
 9290	0x58A9	墩 (<CJK Ideograph>)
 9291	0x58A6	墦 (<CJK Ideograph>)
 9292	0x596D	奭 (<CJK Ideograph>)
 9293	0x5B09	嬉 (<CJK Ideograph>)
 9294	0x5AFB	嫻 (<CJK Ideograph>)
 9295	0x5B0B	嬋 (<CJK Ideograph>)
 9296	0x5AF5	嫵 (<CJK Ideograph>)
 9297	0x5B0C	嬌 (<CJK Ideograph>)
 9298	0x5B08	嬈 (<CJK Ideograph>)
 9299	0x5BEE	寮 (<CJK Ideograph>)
 9300	0x5BEC	寬 (<CJK Ideograph>)
 9301	0x5BE9	審 (<CJK Ideograph>)
 9302	0x5BEB	寫 (<CJK Ideograph>)
 9303	0x5C64	層 (<CJK Ideograph>)
 9304	0x5C65	履 (<CJK Ideograph>)
 9305	0x5D9D	嶝 (<CJK Ideograph>)
 9306	0x5D94	嶔 (<CJK Ideograph>)
 9307	0x5E62	幢 (<CJK Ideograph>)
 9308	0x5E5F	幟 (<CJK Ideograph>)
 9309	0x5E61	幡 (<CJK Ideograph>)
 9310	0x5EE2	廢 (<CJK Ideograph>)
 9311	0x5EDA	廚 (<CJK Ideograph>)
 9312	0x5EDF	廟 (<CJK Ideograph>)
 9313	0x5EDD	廝 (<CJK Ideograph>)
 9314	0x5EE3	廣 (<CJK Ideograph>)
 9315	0x5EE0	廠 (<CJK Ideograph>)
 9316	0x5F48	彈 (<CJK Ideograph>)
 9317	0x5F71	影 (<CJK Ideograph>)
 9318	0x5FB7	德 (<CJK Ideograph>)
 9319	0x5FB5	徵 (<CJK Ideograph>)
 9320	0x6176	慶 (<CJK Ideograph>)
 9321	0x6167	慧 (<CJK Ideograph>)
 9322	0x616E	慮 (<CJK Ideograph>)
 9323	0x615D	慝 (<CJK Ideograph>)
 9324	0x6155	慕 (<CJK Ideograph>)
 9325	0x6182	憂 (<CJK Ideograph>)
 9326	0x617C	慼 (<CJK Ideograph>)
 9327	0x6170	慰 (<CJK Ideograph>)
 9328	0x616B	慫 (<CJK Ideograph>)
 9329	0x617E	慾 (<CJK Ideograph>)
 9330	0x61A7	憧 (<CJK Ideograph>)
 9331	0x6190	憐 (<CJK Ideograph>)
 9332	0x61AB	憫 (<CJK Ideograph>)
 9333	0x618E	憎 (<CJK Ideograph>)
 9334	0x61AC	憬 (<CJK Ideograph>)
 9335	0x619A	憚 (<CJK Ideograph>)
 9336	0x61A4	憤 (<CJK Ideograph>)
 9337	0x6194	憔 (<CJK Ideograph>)
 9338	0x61AE	憮 (<CJK Ideograph>)
 9339	0x622E	戮 (<CJK Ideograph>)
 9340	0x6469	摩 (<CJK Ideograph>)
 9341	0x646F	摯 (<CJK Ideograph>)
 9342	0x6479	摹 (<CJK Ideograph>)
 9343	0x649E	撞 (<CJK Ideograph>)
 9344	0x64B2	撲 (<CJK Ideograph>)
 9345	0x6488	撈 (<CJK Ideograph>)
 9346	0x6490	撐 (<CJK Ideograph>)
 9347	0x64B0	撰 (<CJK Ideograph>)
 9348	0x64A5	撥 (<CJK Ideograph>)
 9349	0x6493	撓 (<CJK Ideograph>)
 9350	0x6495	撕 (<CJK Ideograph>)
 9351	0x64A9	撩 (<CJK Ideograph>)
 9352	0x6492	撒 (<CJK Ideograph>)
 9353	0x64AE	撮 (<CJK Ideograph>)
 9354	0x64AD	播 (<CJK Ideograph>)
 9355	0x64AB	撫 (<CJK Ideograph>)
 9356	0x649A	撚 (<CJK Ideograph>)
 9357	0x64AC	撬 (<CJK Ideograph>)
 9358	0x6499	撙 (<CJK Ideograph>)
 9359	0x64A2	撢 (<CJK Ideograph>)
 9360	0x64B3	撳 (<CJK Ideograph>)
 9361	0x6575	敵 (<CJK Ideograph>)
 9362	0x6577	敷 (<CJK Ideograph>)
 9363	0x6578	數 (<CJK Ideograph>)
 9364	0x66AE	暮 (<CJK Ideograph>)
 9365	0x66AB	暫 (<CJK Ideograph>)
 9366	0x66B4	暴 (<CJK Ideograph>)
 9367	0x66B1	暱 (<CJK Ideograph>)
 9368	0x6A23	樣 (<CJK Ideograph>)
 9369	0x6A1F	樟 (<CJK Ideograph>)
 9370	0x69E8	槨 (<CJK Ideograph>)
 9371	0x6A01	樁 (<CJK Ideograph>)
 9372	0x6A1E	樞 (<CJK Ideograph>)
 9373	0x6A19	標 (<CJK Ideograph>)
 9374	0x69FD	槽 (<CJK Ideograph>)
 9375	0x6A21	模 (<CJK Ideograph>)
 9376	0x6A13	樓 (<CJK Ideograph>)
 9377	0x6A0A	樊 (<CJK Ideograph>)
 9378	0x69F3	槳 (<CJK Ideograph>)
 9379	0x6A02	樂 (<CJK Ideograph>)
 9380	0x6A05	樅 (<CJK Ideograph>)
 9381	0x69ED	槭 (<CJK Ideograph>)
 9382	0x6A11	樑 (<CJK Ideograph>)
 9383	0x6B50	歐 (<CJK Ideograph>)
 9384	0x6B4E	歎 (<CJK Ideograph>)
 9385	0x6BA4	殤 (<CJK Ideograph>)
 9386	0x6BC5	毅 (<CJK Ideograph>)
 9387	0x6BC6	毆 (<CJK Ideograph>)
 9388	0x6F3F	漿 (<CJK Ideograph>)
 9389	0x6F7C	潼 (<CJK Ideograph>)
 9390	0x6F84	澄 (<CJK Ideograph>)
 9391	0x6F51	潑 (<CJK Ideograph>)
 9392	0x6F66	潦 (<CJK Ideograph>)
 9393	0x6F54	潔 (<CJK Ideograph>)
 9394	0x6F86	澆 (<CJK Ideograph>)
 9395	0x6F6D	潭 (<CJK Ideograph>)
 9396	0x6F5B	潛 (<CJK Ideograph>)
 9397	0x6F78	潸 (<CJK Ideograph>)
 9398	0x6F6E	潮 (<CJK Ideograph>)
 9399	0x6F8E	澎 (<CJK Ideograph>)
 9400	0x6F7A	潺 (<CJK Ideograph>)
 9401	0x6F70	潰 (<CJK Ideograph>)
 9402	0x6F64	潤 (<CJK Ideograph>)
 9403	0x6F97	澗 (<CJK Ideograph>)
 9404	0x6F58	潘 (<CJK Ideograph>)
 9405	0x6ED5	滕 (<CJK Ideograph>)
 9406	0x6F6F	潯 (<CJK Ideograph>)
 9407	0x6F60	潠 (<CJK Ideograph>)
 9408	0x6F5F	潟 (<CJK Ideograph>)
 9409	0x719F	熟 (<CJK Ideograph>)
 9410	0x71AC	熬 (<CJK Ideograph>)
 9411	0x71B1	熱 (<CJK Ideograph>)
 9412	0x71A8	熨 (<CJK Ideograph>)
 9413	0x7256	牖 (<CJK Ideograph>)
 9414	0x729B	犛 (<CJK Ideograph>)
 9415	0x734E	獎 (<CJK Ideograph>)
 9416	0x7357	獗 (<CJK Ideograph>)
 9417	0x7469	瑩 (<CJK Ideograph>)
 9418	0x748B	璋 (<CJK Ideograph>)
 9419	0x7483	璃 (<CJK Ideograph>)
"#

/-- encoding_tables/whatwg/index-big5.txt:8278-8434 -/
noncomputable def index60 : List Text := lines! r#" 9420	0x747E	瑾 (<CJK Ideograph>)
 9421	0x7480	璀 (<CJK Ideograph>)
 9422	0x757F	畿 (<CJK Ideograph>)
 9423	0x7620	瘠 (<CJK Ideograph>)
 9424	0x7629	瘩 (<CJK Ideograph>)
 9425	0x761F	瘟 (<CJK Ideograph>)
 9426	0x7624	瘤 (<CJK Ideograph>)
 9427	0x7626	瘦 (<CJK Ideograph>)
 9428	0x7621	瘡 (<CJK Ideograph>)
 9429	0x7622	瘢 (<CJK Ideograph>)
 9430	0x769A	皚 (<CJK Ideograph>)
 9431	0x76BA	皺 (<CJK Ideograph>)
 9432	0x76E4	盤 (<CJK Ideograph>)
 9433	0x778E	瞎 (<CJK Ideograph>)
 9434	0x7787	瞇 (<CJK Ideograph>)
 9435	0x778C	瞌 (<CJK Ideograph>)
 9436	0x7791	瞑 (<CJK Ideograph>)
 9437	0x778B	瞋 (<CJK Ideograph>)
 9438	0x78CB	磋 (<CJK Ideograph>)
 9439	0x78C5	磅 (<CJK Ideograph>)
 9440	0x78BA	確 (<CJK Ideograph>)
 9441	0x78CA	磊 (<CJK Ideograph>)
 9442	0x78BE	碾 (<CJK Ideograph>)
 9443	0x78D5	磕 (<CJK Ideograph>)
 9444	0x78BC	碼 (<CJK Ideograph>)
 9445	0x78D0	磐 (<CJK Ideograph>)
 9446	0x7A3F	稿 (<CJK Ideograph>)
 9447	0x7A3C	稼 (<CJK Ideograph>)
 9448	0x7A40	穀 (<CJK Ideograph>)
 9449	0x7A3D	稽 (<CJK Ideograph>)
 9450	0x7A37	稷 (<CJK Ideograph>)
 9451	0x7A3B	稻 (<CJK Ideograph>)
 9452	0x7AAF	窯 (<CJK Ideograph>)
 9453	0x7AAE	窮 (<CJK Ideograph>)
 9454	0x7BAD	箭 (<CJK Ideograph>)
 9455	0x7BB1	箱 (<CJK Ideograph>)
 9456	0x7BC4	範 (<CJK Ideograph>)
 9457	0x7BB4	箴 (<CJK Ideograph>)
 9458	0x7BC6	篆 (<CJK Ideograph>)
 9459	0x7BC7	篇 (<CJK Ideograph>)
 9460	0x7BC1	篁 (<CJK Ideograph>)
 9461	0x7BA0	箠 (<CJK Ideograph>)
 9462	0x7BCC	篌 (<CJK Ideograph>)
 9463	0x7CCA	糊 (<CJK Ideograph>)
 9464	0x7DE0	締 (<CJK Ideograph>)
 9465	0x7DF4	練 (<CJK Ideograph>)
 9466	0x7DEF	緯 (<CJK Ideograph>)
 9467	0x7DFB	緻 (<CJK Ideograph>)
 9468	0x7DD8	緘 (<CJK Ideograph>)
 9469	0x7DEC	緬 (<CJK Ideograph>)
 9470	0x7DDD	緝 (<CJK Ideograph>)
 9471	0x7DE8	編 (<CJK Ideograph>)
 9472	0x7DE3	緣 (<CJK Ideograph>)
 9473	0x7DDA	線 (<CJK Ideograph>)
 9474	0x7DDE	緞 (<CJK Ideograph>)
 9475	0x7DE9	緩 (<CJK Ideograph>)
 9476	0x7D9E	綞 (<CJK Ideograph>)
 9477	0x7DD9	緙 (<CJK Ideograph>)
 9478	0x7DF2	緲 (<CJK Ideograph>)
 9479	0x7DF9	緹 (<CJK Ideograph>)
 9480	0x7F75	罵 (<CJK Ideograph>)
 9481	0x7F77	罷 (<CJK Ideograph>)
 9482	0x7FAF	羯 (<CJK Ideograph>)
 9483	0x7FE9	翩 (<CJK Ideograph>)
 9484	0x8026	耦 (<CJK Ideograph>)
 9485	0x819B	膛 (<CJK Ideograph>)
 9486	0x819C	膜 (<CJK Ideograph>)
 9487	0x819D	膝 (<CJK Ideograph>)
 9488	0x81A0	膠 (<CJK Ideograph>)
 9489	0x819A	膚 (<CJK Ideograph>)
 9490	0x8198	膘 (<CJK Ideograph>)
 9491	0x8517	蔗 (<CJK Ideograph>)
 9492	0x853D	蔽 (<CJK Ideograph>)
 9493	0x851A	蔚 (<CJK Ideograph>)
 9494	0x84EE	蓮 (<CJK Ideograph>)
 9495	0x852C	蔬 (<CJK Ideograph>)
 9496	0x852D	蔭 (<CJK Ideograph>)
 9497	0x8513	蔓 (<CJK Ideograph>)
 9498	0x8511	蔑 (<CJK Ideograph>)
 9499	0x8523	蔣 (<CJK Ideograph>)
 9500	0x8521	蔡 (<CJK Ideograph>)
 9501	0x8514	蔔 (<CJK Ideograph>)
 9502	0x84EC	蓬 (<CJK Ideograph>)
 9503	0x8525	蔥 (<CJK Ideograph>)
 9504	0x84FF	蓿 (<CJK Ideograph>)
 9505	0x8506	蔆 (<CJK Ideograph>)
 9506	0x8782	螂 (<CJK Ideograph>)
 9507	0x8774	蝴 (<CJK Ideograph>)
 9508	0x8776	蝶 (<CJK Ideograph>)
 9509	0x8760	蝠 (<CJK Ideograph>)
 9510	0x8766	蝦 (<CJK Ideograph>)
 9511	0x8778	蝸 (<CJK Ideograph>)
 9512	0x8768	蝨 (<CJK Ideograph>)
 9513	0x8759	蝙 (<CJK Ideograph>)
 9514	0x8757	蝗 (<CJK Ideograph>)
 9515	0x874C	蝌 (<CJK Ideograph>)
 9516	0x8753	蝓 (<CJK Ideograph>)
 9517	0x885B	衛 (<CJK Ideograph>)
 9518	0x885D	衝 (<CJK Ideograph>)
 9519	0x8910	褐 (<CJK Ideograph>)
 9520	0x8907	複 (<CJK Ideograph>)
 9521	0x8912	褒 (<CJK Ideograph>)
 9522	0x8913	褓 (<CJK Ideograph>)
 9523	0x8915	褕 (<CJK Ideograph>)
 9524	0x890A	褊 (<CJK Ideograph>)
 9525	0x8ABC	誼 (<CJK Ideograph>)
 9526	0x8AD2	諒 (<CJK Ideograph>)
 9527	0x8AC7	談 (<CJK Ideograph>)
 9528	0x8AC4	諄 (<CJK Ideograph>)
 9529	0x8A95	誕 (<CJK Ideograph>)
 9530	0x8ACB	請 (<CJK Ideograph>)
 9531	0x8AF8	諸 (<CJK Ideograph>)
 9532	0x8AB2	課 (<CJK Ideograph>)
 9533	0x8AC9	諉 (<CJK Ideograph>)
 9534	0x8AC2	諂 (<CJK Ideograph>)
 9535	0x8ABF	調 (<CJK Ideograph>)
 9536	0x8AB0	誰 (<CJK Ideograph>)
 9537	0x8AD6	論 (<CJK Ideograph>)
 9538	0x8ACD	諍 (<CJK Ideograph>)
 9539	0x8AB6	誶 (<CJK Ideograph>)
 9540	0x8AB9	誹 (<CJK Ideograph>)
 9541	0x8ADB	諛 (<CJK Ideograph>)
 9542	0x8C4C	豌 (<CJK Ideograph>)
 9543	0x8C4E	豎 (<CJK Ideograph>)
 9544	0x8C6C	豬 (<CJK Ideograph>)
 9545	0x8CE0	賠 (<CJK Ideograph>)
 9546	0x8CDE	賞 (<CJK Ideograph>)
 9547	0x8CE6	賦 (<CJK Ideograph>)
 9548	0x8CE4	賤 (<CJK Ideograph>)
 9549	0x8CEC	賬 (<CJK Ideograph>)
 9550	0x8CED	賭 (<CJK Ideograph>)
 9551	0x8CE2	賢 (<CJK Ideograph>)
 9552	0x8CE3	賣 (<CJK Ideograph>)
 9553	0x8CDC	賜 (<CJK Ideograph>)
 9554	0x8CEA	質 (<CJK Ideograph>)
 9555	0x8CE1	賡 (<CJK Ideograph>)
 9556	0x8D6D	赭 (<CJK Ideograph>)
 9557	0x8D9F	趟 (<CJK Ideograph>)
 9558	0x8DA3	趣 (<CJK Ideograph>)
 9559	0x8E2B	踫 (<CJK Ideograph>)
 9560	0x8E10	踐 (<CJK Ideograph>)
 9561	0x8E1D	踝 (<CJK Ideograph>)
 9562	0x8E22	踢 (<CJK Ideograph>)
 9563	0x8E0F	踏 (<CJK Ideograph>)
 9564	0x8E29	踩 (<CJK Ideograph>)
 9565	0x8E1F	踟 (<CJK Ideograph>)
 9566	0x8E21	踡 (<CJK Ideograph>)
 9567	0x8E1E	踞 (<CJK Ideograph>)
 9568	0x8EBA	躺 (<CJK Ideograph>)
 9569	0x8F1D	輝 (<CJK Ideograph>)
 9570	0x8F1B	輛 (<CJK Ideograph>)
 9571	0x8F1F	輟 (<CJK Ideograph>)
 9572	0x8F29	輩 (<CJK Ideograph>)
 9573	0x8F26	輦 (<CJK Ideograph>)
 9574	0x8F2A	輪 (<CJK Ideograph>)
 9575	0x8F1C	輜 (<CJK Ideograph>)
 9576	0x8F1E	輞 (<CJK Ideograph>)
"#

/-- encoding_tables/whatwg/index-big5.txt:8435-8591 -/
noncomputable def index61 : List Text := lines! r#" 9577	0x8F25	輥 (<CJK Ideograph>)
 9578	0x9069	適 (<CJK Ideograph>)
 9579	0x906E	遮 (<CJK Ideograph>)
 9580	0x9068	遨 (<CJK Ideograph>)
 9581	0x906D	遭 (<CJK Ideograph>)
 9582	0x9077	遷 (<CJK Ideograph>)
 9583	0x9130	鄰 (<CJK Ideograph>)
 9584	0x912D	鄭 (<CJK Ideograph>)
 9585	0x9127	鄧 (<CJK Ideograph>)
 9586	0x9131	鄱 (<CJK Ideograph>)
 9587	0x9187	醇 (<CJK Ideograph>)
 9588	0x9189	醉 (<CJK Ideograph>)
 9589	0x918B	醋 (<CJK Ideograph>)
 9590	0x9183	醃 (<CJK Ideograph>)
 9591	0x92C5	鋅 (<CJK Ideograph>)
 9592	0x92BB	銻 (<CJK Ideograph>)
 9593	0x92B7	銷 (<CJK Ideograph>)
 9594	0x92EA	鋪 (<CJK Ideograph>)
 9595	0x92AC	銬 (<CJK Ideograph>)
 9596	0x92E4	鋤 (<CJK Ideograph>)
 9597	0x92C1	鋁 (<CJK Ideograph>)
 9598	0x92B3	銳 (<CJK Ideograph>)
 9599	0x92BC	銼 (<CJK Ideograph>)
 9600	0x92D2	鋒 (<CJK Ideograph>)
 9601	0x92C7	鋇 (<CJK Ideograph>)
 9602	0x92F0	鋰 (<CJK Ideograph>)
 9603	0x92B2	銲 (<CJK Ideograph>)
 9604	0x95AD	閭 (<CJK Ideograph>)
 9605	0x95B1	閱 (<CJK Ideograph>)
 9606	0x9704	霄 (<CJK Ideograph>)
 9607	0x9706	霆 (<CJK Ideograph>)
 9608	0x9707	震 (<CJK Ideograph>)
 9609	0x9709	霉 (<CJK Ideograph>)
 9610	0x9760	靠 (<CJK Ideograph>)
 9611	0x978D	鞍 (<CJK Ideograph>)
 9612	0x978B	鞋 (<CJK Ideograph>)
 9613	0x978F	鞏 (<CJK Ideograph>)
 9614	0x9821	頡 (<CJK Ideograph>)
 9615	0x982B	頫 (<CJK Ideograph>)
 9616	0x981C	頜 (<CJK Ideograph>)
 9617	0x98B3	颳 (<CJK Ideograph>)
 9618	0x990A	養 (<CJK Ideograph>)
 9619	0x9913	餓 (<CJK Ideograph>)
 9620	0x9912	餒 (<CJK Ideograph>)
 9621	0x9918	餘 (<CJK Ideograph>)
 9622	0x99DD	駝 (<CJK Ideograph>)
 9623	0x99D0	駐 (<CJK Ideograph>)
 9624	0x99DF	駟 (<CJK Ideograph>)
 9625	0x99DB	駛 (<CJK Ideograph>)
 9626	0x99D1	駑 (<CJK Ideograph>)
 9627	0x99D5	駕 (<CJK Ideograph>)
 9628	0x99D2	駒 (<CJK Ideograph>)
 9629	0x99D9	駙 (<CJK Ideograph>)
 9630	0x9AB7	骷 (<CJK Ideograph>)
 9631	0x9AEE	髮 (<CJK Ideograph>)
 9632	0x9AEF	髯 (<CJK Ideograph>)
 9633	0x9B27	鬧 (<CJK Ideograph>)
 9634	0x9B45	魅 (<CJK Ideograph>)
 9635	0x9B44	魄 (<CJK Ideograph>)
 9636	0x9B77	魷 (<CJK Ideograph>)
 9637	0x9B6F	魯 (<CJK Ideograph>)
 9638	0x9D06	鴆 (<CJK Ideograph>)
 9639	0x9D09	鴉 (<CJK Ideograph>)
 9640	0x9D03	鴃 (<CJK Ideograph>)
 9641	0x9EA9	麩 (<CJK Ideograph>)
 9642	0x9EBE	麾 (<CJK Ideograph>)
 9643	0x9ECE	黎 (<CJK Ideograph>)
 9644	0x58A8	墨 (<CJK Ideograph>)
 9645	0x9F52	齒 (<CJK Ideograph>)
 9646	0x5112	儒 (<CJK Ideograph>)
 9647	0x5118	儘 (<CJK Ideograph>)
 9648	0x5114	儔 (<CJK Ideograph>)
 9649	0x5110	儐 (<CJK Ideograph>)
 9650	0x5115	儕 (<CJK Ideograph>)
 9651	0x5180	冀 (<CJK Ideograph>)
 9652	0x51AA	冪 (<CJK Ideograph>)
 9653	0x51DD	凝 (<CJK Ideograph>)
 9654	0x5291	劑 (<CJK Ideograph>)
 9655	0x5293	劓 (<CJK Ideograph>)
 9656	0x52F3	勳 (<CJK Ideograph>)
 9657	0x5659	噙 (<CJK Ideograph>)
 9658	0x566B	噫 (<CJK Ideograph>)
 9659	0x5679	噹 (<CJK Ideograph>)
 9660	0x5669	噩 (<CJK Ideograph>)
 9661	0x5664	噤 (<CJK Ideograph>)
 9662	0x5678	噸 (<CJK Ideograph>)
 9663	0x566A	噪 (<CJK Ideograph>)
 9664	0x5668	器 (<CJK Ideograph>)
 9665	0x5665	噥 (<CJK Ideograph>)
 9666	0x5671	噱 (<CJK Ideograph>)
 9667	0x566F	噯 (<CJK Ideograph>)
 9668	0x566C	噬 (<CJK Ideograph>)
 9669	0x5662	噢 (<CJK Ideograph>)
 9670	0x5676	噶 (<CJK Ideograph>)
 9671	0x58C1	壁 (<CJK Ideograph>)
 9672	0x58BE	墾 (<CJK Ideograph>)
 9673	0x58C7	壇 (<CJK Ideograph>)
 9674	0x58C5	壅 (<CJK Ideograph>)
 9675	0x596E	奮 (<CJK Ideograph>)
 9676	0x5B1D	嬝 (<CJK Ideograph>)
 9677	0x5B34	嬴 (<CJK Ideograph>)
 9678	0x5B78	學 (<CJK Ideograph>)
 9679	0x5BF0	寰 (<CJK Ideograph>)
 9680	0x5C0E	導 (<CJK Ideograph>)
 9681	0x5F4A	彊 (<CJK Ideograph>)
 9682	0x61B2	憲 (<CJK Ideograph>)
 9683	0x6191	憑 (<CJK Ideograph>)
 9684	0x61A9	憩 (<CJK Ideograph>)
 9685	0x618A	憊 (<CJK Ideograph>)
 9686	0x61CD	懍 (<CJK Ideograph>)
 9687	0x61B6	憶 (<CJK Ideograph>)
 9688	0x61BE	憾 (<CJK Ideograph>)
 9689	0x61CA	懊 (<CJK Ideograph>)
 9690	0x61C8	懈 (<CJK Ideograph>)
 9691	0x6230	戰 (<CJK Ideograph>)
 9692	0x64C5	擅 (<CJK Ideograph>)
 9693	0x64C1	擁 (<CJK Ideograph>)
 9694	0x64CB	擋 (<CJK Ideograph>)
 9695	0x64BB	撻 (<CJK Ideograph>)
 9696	0x64BC	撼 (<CJK Ideograph>)
 9697	0x64DA	據 (<CJK Ideograph>)
 9698	0x64C4	擄 (<CJK Ideograph>)
 9699	0x64C7	擇 (<CJK Ideograph>)
 9700	0x64C2	擂 (<CJK Ideograph>)
 9701	0x64CD	操 (<CJK Ideograph>)
 9702	0x64BF	撿 (<CJK Ideograph>)
 9703	0x64D2	擒 (<CJK Ideograph>)
 9704	0x64D4	擔 (<CJK Ideograph>)
 9705	0x64BE	撾 (<CJK Ideograph>)
 9706	0x6574	整 (<CJK Ideograph>)
 9707	0x66C6	曆 (<CJK Ideograph>)
 9708	0x66C9	曉 (<CJK Ideograph>)
 9709	0x66B9	暹 (<CJK Ideograph>)
 9710	0x66C4	曄 (<CJK Ideograph>)
 9711	0x66C7	曇 (<CJK Ideograph>)
 9712	0x66B8	暸 (<CJK Ideograph>)
 9713	0x6A3D	樽 (<CJK Ideograph>)
 9714	0x6A38	樸 (<CJK Ideograph>)
 9715	0x6A3A	樺 (<CJK Ideograph>)
 9716	0x6A59	橙 (<CJK Ideograph>)
 9717	0x6A6B	橫 (<CJK Ideograph>)
 9718	0x6A58	橘 (<CJK Ideograph>)
 9719	0x6A39	樹 (<CJK Ideograph>)
 9720	0x6A44	橄 (<CJK Ideograph>)
 9721	0x6A62	橢 (<CJK Ideograph>)
 9722	0x6A61	橡 (<CJK Ideograph>)
 9723	0x6A4B	橋 (<CJK Ideograph>)
 9724	0x6A47	橇 (<CJK Ideograph>)
 9725	0x6A35	樵 (<CJK Ideograph>)
 9726	0x6A5F	機 (<CJK Ideograph>)
 9727	0x6A48	橈 (<CJK Ideograph>)
 9728	0x6B59	歙 (<CJK Ideograph>)
 9729	0x6B77	歷 (<CJK Ideograph>)
 9730	0x6C05	氅 (<CJK Ideograph>)
 9731	0x6FC2	濂 (<CJK Ideograph>)
 9732	0x6FB1	澱 (<CJK Ideograph>)
 9733	0x6FA1	澡 (<CJK Ideograph>)
"#

/-- encoding_tables/whatwg/index-big5.txt:8592-8748 -/
noncomputable def index62 : List Text := lines! r#" 9734	0x6FC3	濃 (<CJK Ideograph>)
 9735	0x6FA4	澤 (<CJK Ideograph>)
 9736	0x6FC1	濁 (<CJK Ideograph>)
 9737	0x6FA7	澧 (<CJK Ideograph>)
 9738	0x6FB3	澳 (<CJK Ideograph>)
 9739	0x6FC0	激 (<CJK Ideograph>)
 9740	0x6FB9	澹 (<CJK Ideograph>)
 9741	0x6FB6	澶 (<CJK Ideograph>)
 9742	0x6FA6	澦 (<CJK Ideograph>)
 9743	0x6FA0	澠 (<CJK Ideograph>)
 9744	0x6FB4	澴 (<CJK Ideograph>)
 9745	0x71BE	熾 (<CJK Ideograph>)
 9746	0x71C9	燉 (<CJK Ideograph>)
 9747	0x71D0	燐 (<CJK Ideograph>)
 9748	0x71D2	燒 (<CJK Ideograph>)
 9749	0x71C8	燈 (<CJK Ideograph>)
 9750	0x71D5	燕 (<CJK Ideograph>)
 9751	0x71B9	熹 (<CJK Ideograph>)
 9752	0x71CE	燎 (<CJK Ideograph>)
 9753	0x71D9	燙 (<CJK Ideograph>)
 9754	0x71DC	燜 (<CJK Ideograph>)
 9755	0x71C3	燃 (<CJK Ideograph>)
 9756	0x71C4	燄 (<CJK Ideograph>)
 9757	0x7368	獨 (<CJK Ideograph>)
 9758	0x749C	璜 (<CJK Ideograph>)
 9759	0x74A3	璣 (<CJK Ideograph>)
 9760	0x7498	璘 (<CJK Ideograph>)
 9761	0x749F	璟 (<CJK Ideograph>)
 9762	0x749E	璞 (<CJK Ideograph>)
 9763	0x74E2	瓢 (<CJK Ideograph>)
 9764	0x750C	甌 (<CJK Ideograph>)
 9765	0x750D	甍 (<CJK Ideograph>)
 9766	0x7634	瘴 (<CJK Ideograph>)
 9767	0x7638	瘸 (<CJK Ideograph>)
 9768	0x763A	瘺 (<CJK Ideograph>)
 9769	0x76E7	盧 (<CJK Ideograph>)
 9770	0x76E5	盥 (<CJK Ideograph>)
 9771	0x77A0	瞠 (<CJK Ideograph>)
 9772	0x779E	瞞 (<CJK Ideograph>)
 9773	0x779F	瞟 (<CJK Ideograph>)
 9774	0x77A5	瞥 (<CJK Ideograph>)
 9775	0x78E8	磨 (<CJK Ideograph>)
 9776	0x78DA	磚 (<CJK Ideograph>)
 9777	0x78EC	磬 (<CJK Ideograph>)
 9778	0x78E7	磧 (<CJK Ideograph>)
 9779	0x79A6	禦 (<CJK Ideograph>)
 9780	0x7A4D	積 (<CJK Ideograph>)
 9781	0x7A4E	穎 (<CJK Ideograph>)
 9782	0x7A46	穆 (<CJK Ideograph>)
 9783	0x7A4C	穌 (<CJK Ideograph>)
 9784	0x7A4B	穋 (<CJK Ideograph>)
 9785	0x7ABA	窺 (<CJK Ideograph>)
 9786	0x7BD9	篙 (<CJK Ideograph>)
 9787	0x7C11	簑 (<CJK Ideograph>)
 9788	0x7BC9	築 (<CJK Ideograph>)
 9789	0x7BE4	篤 (<CJK Ideograph>)
 9790	0x7BDB	篛 (<CJK Ideograph>)
 9791	0x7BE1	篡 (<CJK Ideograph>)
 9792	0x7BE9	篩 (<CJK Ideograph>)
 9793	0x7BE6	篦 (<CJK Ideograph>)
 9794	0x7CD5	糕 (<CJK Ideograph>)
 9795	0x7CD6	糖 (<CJK Ideograph>)
 9796	0x7E0A	縊 (<CJK Ideograph>)
 9797	0x7E11	縑 (<CJK Ideograph>)
 9798	0x7E08	縈 (<CJK Ideograph>)
 9799	0x7E1B	縛 (<CJK Ideograph>)
 9800	0x7E23	縣 (<CJK Ideograph>)
 9801	0x7E1E	縞 (<CJK Ideograph>)
 9802	0x7E1D	縝 (<CJK Ideograph>)
 9803	0x7E09	縉 (<CJK Ideograph>)
 9804	0x7E10	縐 (<CJK Ideograph>)
 9805	0x7F79	罹 (<CJK Ideograph>)
 9806	0x7FB2	羲 (<CJK Ideograph>)
 9807	0x7FF0	翰 (<CJK Ideograph>)
 9808	0x7FF1	翱 (<CJK Ideograph>)
 9809	0x7FEE	翮 (<CJK Ideograph>)
 9810	0x8028	耨 (<CJK Ideograph>)
 9811	0x81B3	膳 (<CJK Ideograph>)
 9812	0x81A9	膩 (<CJK Ideograph>)
 9813	0x81A8	膨 (<CJK Ideograph>)
 9814	0x81FB	臻 (<CJK Ideograph>)
 9815	0x8208	興 (<CJK Ideograph>)
 9816	0x8258	艘 (<CJK Ideograph>)
 9817	0x8259	艙 (<CJK Ideograph>)
 9818	0x854A	蕊 (<CJK Ideograph>)
 9819	0x8559	蕙 (<CJK Ideograph>)
 9820	0x8548	蕈 (<CJK Ideograph>)
 9821	0x8568	蕨 (<CJK Ideograph>)
 9822	0x8569	蕩 (<CJK Ideograph>)
 9823	0x8543	蕃 (<CJK Ideograph>)
 9824	0x8549	蕉 (<CJK Ideograph>)
 9825	0x856D	蕭 (<CJK Ideograph>)
 9826	0x856A	蕪 (<CJK Ideograph>)
 9827	0x855E	蕞 (<CJK Ideograph>)
 9828	0x8783	螃 (<CJK Ideograph>)
 9829	0x879F	螟 (<CJK Ideograph>)
 9830	0x879E	螞 (<CJK Ideograph>)
 9831	0x87A2	螢 (<CJK Ideograph>)
 9832	0x878D	融 (<CJK Ideograph>)
 9833	0x8861	衡 (<CJK Ideograph>)
 9834	0x892A	褪 (<CJK Ideograph>)
 9835	0x8932	褲 (<CJK Ideograph>)
 9836	0x8925	褥 (<CJK Ideograph>)
 9837	0x892B	褫 (<CJK Ideograph>)
 9838	0x8921	褡 (<CJK Ideograph>)
 9839	0x89AA	親 (<CJK Ideograph>)
 9840	0x89A6	覦 (<CJK Ideograph>)
 9841	0x8AE6	諦 (<CJK Ideograph>)
 9842	0x8AFA	諺 (<CJK Ideograph>)
 9843	0x8AEB	諫 (<CJK Ideograph>)
 9844	0x8AF1	諱 (<CJK Ideograph>)
 9845	0x8B00	謀 (<CJK Ideograph>)
 9846	0x8ADC	諜 (<CJK Ideograph>)
 9847	0x8AE7	諧 (<CJK Ideograph>)
 9848	0x8AEE	諮 (<CJK Ideograph>)
 9849	0x8AFE	諾 (<CJK Ideograph>)
 9850	0x8B01	謁 (<CJK Ideograph>)
 9851	0x8B02	謂 (<CJK Ideograph>)
 9852	0x8AF7	諷 (<CJK Ideograph>)
 9853	0x8AED	諭 (<CJK Ideograph>)
 9854	0x8AF3	諳 (<CJK Ideograph>)
 9855	0x8AF6	諶 (<CJK Ideograph>)
 9856	0x8AFC	諼 (<CJK Ideograph>)
 9857	0x8C6B	豫 (<CJK Ideograph>)
 9858	0x8C6D	豭 (<CJK Ideograph>)
 9859	0x8C93	貓 (<CJK Ideograph>)
 9860	0x8CF4	賴 (<CJK Ideograph>)
 9861	0x8E44	蹄 (<CJK Ideograph>)
 9862	0x8E31	踱 (<CJK Ideograph>)
 9863	0x8E34	踴 (<CJK Ideograph>)
 9864	0x8E42	蹂 (<CJK Ideograph>)
 9865	0x8E39	踹 (<CJK Ideograph>)
 9866	0x8E35	踵 (<CJK Ideograph>)
 9867	0x8F3B	輻 (<CJK Ideograph>)
 9868	0x8F2F	輯 (<CJK Ideograph>)
 9869	0x8F38	輸 (<CJK Ideograph>)
 9870	0x8F33	輳 (<CJK Ideograph>)
 9871	0x8FA8	辨 (<CJK Ideograph>)
 9872	0x8FA6	辦 (<CJK Ideograph>)
 9873	0x9075	遵 (<CJK Ideograph>)
 9874	0x9074	遴 (<CJK Ideograph>)
 9875	0x9078	選 (<CJK Ideograph>)
 9876	0x9072	遲 (<CJK Ideograph>)
 9877	0x907C	遼 (<CJK Ideograph>)
 9878	0x907A	遺 (<CJK Ideograph>)
 9879	0x9134	鄴 (<CJK Ideograph>)
 9880	0x9192	醒 (<CJK Ideograph>)
 9881	0x9320	錠 (<CJK Ideograph>)
 9882	0x9336	錶 (<CJK Ideograph>)
 9883	0x92F8	鋸 (<CJK Ideograph>)
 9884	0x9333	錳 (<CJK Ideograph>)
 9885	0x932F	錯 (<CJK Ideograph>)
 9886	0x9322	錢 (<CJK Ideograph>)
 9887	0x92FC	鋼 (<CJK Ideograph>)
 9888	0x932B	錫 (<CJK Ideograph>)
 9889	0x9304	錄 (<CJK Ideograph>)
 9890	0x931A	錚 (<CJK Ideograph>)
"#

/-- encoding_tables/whatwg/index-big5.txt:8749-8905 -/
noncomputable def index63 : List Text := lines! r#" 9891	0x9310	錐 (<CJK Ideograph>)
 9892	0x9326	錦 (<CJK Ideograph>)
 9893	0x9321	錡 (<CJK Ideograph>)
 9894	0x9315	錕 (<CJK Ideograph>)
 9895	0x932E	錮 (<CJK Ideograph>)
 9896	0x9319	錙 (<CJK Ideograph>)
 9897	0x95BB	閻 (<CJK Ideograph>)
 9898	0x96A7	隧 (<CJK Ideograph>)
 9899	0x96A8	隨 (<CJK Ideograph>)
 9900	0x96AA	險 (<CJK Ideograph>)
 9901	0x96D5	雕 (<CJK Ideograph>)
 9902	0x970E	霎 (<CJK Ideograph>)
 9903	0x9711	霑 (<CJK Ideograph>)
 9904	0x9716	霖 (<CJK Ideograph>)
 9905	0x970D	霍 (<CJK Ideograph>)
 9906	0x9713	霓 (<CJK Ideograph>)
 9907	0x970F	霏 (<CJK Ideograph>)
 9908	0x975B	靛 (<CJK Ideograph>)
 9909	0x975C	靜 (<CJK Ideograph>)
 9910	0x9766	靦 (<CJK Ideograph>)
 9911	0x9798	鞘 (<CJK Ideograph>)
 9912	0x9830	頰 (<CJK Ideograph>)
 9913	0x9838	頸 (<CJK Ideograph>)
 9914	0x983B	頻 (<CJK Ideograph>)
 9915	0x9837	頷 (<CJK Ideograph>)
 9916	0x982D	頭 (<CJK Ideograph>)
 9917	0x9839	頹 (<CJK Ideograph>)
 9918	0x9824	頤 (<CJK Ideograph>)
 9919	0x9910	餐 (<CJK Ideograph>)
 9920	0x9928	館 (<CJK Ideograph>)
 9921	0x991E	餞 (<CJK Ideograph>)
 9922	0x991B	餛 (<CJK Ideograph>)
 9923	0x9921	餡 (<CJK Ideograph>)
 9924	0x991A	餚 (<CJK Ideograph>)
 9925	0x99ED	駭 (<CJK Ideograph>)
 9926	0x99E2	駢 (<CJK Ideograph>)
 9927	0x99F1	駱 (<CJK Ideograph>)
 9928	0x9AB8	骸 (<CJK Ideograph>)
 9929	0x9ABC	骼 (<CJK Ideograph>)
 9930	0x9AFB	髻 (<CJK Ideograph>)
 9931	0x9AED	髭 (<CJK Ideograph>)
 9932	0x9B28	鬨 (<CJK Ideograph>)
 9933	0x9B91	鮑 (<CJK Ideograph>)
 9934	0x9D15	鴕 (<CJK Ideograph>)
 9935	0x9D23	鴣 (<CJK Ideograph>)
 9936	0x9D26	鴦 (<CJK Ideograph>)
 9937	0x9D28	鴨 (<CJK Ideograph>)
 9938	0x9D12	鴒 (<CJK Ideograph>)
 9939	0x9D1B	鴛 (<CJK Ideograph>)
 9940	0x9ED8	默 (<CJK Ideograph>)
 9941	0x9ED4	黔 (<CJK Ideograph>)
 9942	0x9F8D	龍 (<CJK Ideograph>)
 9943	0x9F9C	龜 (<CJK Ideograph>)
 9944	0x512A	優 (<CJK Ideograph>)
 9945	0x511F	償 (<CJK Ideograph>)
 9946	0x5121	儡 (<CJK Ideograph>)
 9947	0x5132	儲 (<CJK Ideograph>)
 9948	0x52F5	勵 (<CJK Ideograph>)
 9949	0x568E	嚎 (<CJK Ideograph>)
 9950	0x5680	嚀 (<CJK Ideograph>)
 9951	0x5690	嚐 (<CJK Ideograph>)
 9952	0x5685	嚅 (<CJK Ideograph>)
 9953	0x5687	嚇 (<CJK Ideograph>)
 9954	0x568F	嚏 (<CJK Ideograph>)
 9955	0x58D5	壕 (<CJK Ideograph>)
 9956	0x58D3	壓 (<CJK Ideograph>)
 9957	0x58D1	壑 (<CJK Ideograph>)
 9958	0x58CE	壎 (<CJK Ideograph>)
 9959	0x5B30	嬰 (<CJK Ideograph>)
 9960	0x5B2A	嬪 (<CJK Ideograph>)
 9961	0x5B24	嬤 (<CJK Ideograph>)
 9962	0x5B7A	孺 (<CJK Ideograph>)
 9963	0x5C37	尷 (<CJK Ideograph>)
 9964	0x5C68	屨 (<CJK Ideograph>)
 9965	0x5DBC	嶼 (<CJK Ideograph>)
 9966	0x5DBA	嶺 (<CJK Ideograph>)
 9967	0x5DBD	嶽 (<CJK Ideograph>)
 9968	0x5DB8	嶸 (<CJK Ideograph>)
 9969	0x5E6B	幫 (<CJK Ideograph>)
 9970	0x5F4C	彌 (<CJK Ideograph>)
 9971	0x5FBD	徽 (<CJK Ideograph>)
 9972	0x61C9	應 (<CJK Ideograph>)
 9973	0x61C2	懂 (<CJK Ideograph>)
 9974	0x61C7	懇 (<CJK Ideograph>)
 9975	0x61E6	懦 (<CJK Ideograph>)
 9976	0x61CB	懋 (<CJK Ideograph>)
 9977	0x6232	戲 (<CJK Ideograph>)
 9978	0x6234	戴 (<CJK Ideograph>)
 9979	0x64CE	擎 (<CJK Ideograph>)
 9980	0x64CA	擊 (<CJK Ideograph>)
 9981	0x64D8	擘 (<CJK Ideograph>)
 9982	0x64E0	擠 (<CJK Ideograph>)
 9983	0x64F0	擰 (<CJK Ideograph>)
 9984	0x64E6	擦 (<CJK Ideograph>)
 9985	0x64EC	擬 (<CJK Ideograph>)
 9986	0x64F1	擱 (<CJK Ideograph>)
 9987	0x64E2	擢 (<CJK Ideograph>)
 9988	0x64ED	擭 (<CJK Ideograph>)
 9989	0x6582	斂 (<CJK Ideograph>)
 9990	0x6583	斃 (<CJK Ideograph>)
 9991	0x66D9	曙 (<CJK Ideograph>)
 9992	0x66D6	曖 (<CJK Ideograph>)
 9993	0x6A80	檀 (<CJK Ideograph>)
 9994	0x6A94	檔 (<CJK Ideograph>)
 9995	0x6A84	檄 (<CJK Ideograph>)
 9996	0x6AA2	檢 (<CJK Ideograph>)
 9997	0x6A9C	檜 (<CJK Ideograph>)
 9998	0x6ADB	櫛 (<CJK Ideograph>)
 9999	0x6AA3	檣 (<CJK Ideograph>)
10000	0x6A7E	橾 (<CJK Ideograph>)
10001	0x6A97	檗 (<CJK Ideograph>)
10002	0x6A90	檐 (<CJK Ideograph>)
10003	0x6AA0	檠 (<CJK Ideograph>)
10004	0x6B5C	歜 (<CJK Ideograph>)
10005	0x6BAE	殮 (<CJK Ideograph>)
10006	0x6BDA	毚 (<CJK Ideograph>)
10007	0x6C08	氈 (<CJK Ideograph>)
10008	0x6FD8	濘 (<CJK Ideograph>)
10009	0x6FF1	濱 (<CJK Ideograph>)
10010	0x6FDF	濟 (<CJK Ideograph>)
10011	0x6FE0	濠 (<CJK Ideograph>)
10012	0x6FDB	濛 (<CJK Ideograph>)
10013	0x6FE4	濤 (<CJK Ideograph>)
10014	0x6FEB	濫 (<CJK Ideograph>)
10015	0x6FEF	濯 (<CJK Ideograph>)
10016	0x6F80	澀 (<CJK Ideograph>)
10017	0x6FEC	濬 (<CJK Ideograph>)
10018	0x6FE1	濡 (<CJK Ideograph>)
10019	0x6FE9	濩 (<CJK Ideograph>)
10020	0x6FD5	濕 (<CJK Ideograph>)
10021	0x6FEE	濮 (<CJK Ideograph>)
10022	0x6FF0	濰 (<CJK Ideograph>)
10023	0x71E7	燧 (<CJK Ideograph>)
10024	0x71DF	營 (<CJK Ideograph>)
10025	0x71EE	燮 (<CJK Ideograph>)
10026	0x71E6	燦 (<CJK Ideograph>)
10027	0x71E5	燥 (<CJK Ideograph>)
10028	0x71ED	燭 (<CJK Ideograph>)
10029	0x71EC	燬 (<CJK Ideograph>)
10030	0x71F4	燴 (<CJK Ideograph>)
10031	0x71E0	燠 (<CJK Ideograph>)
10032	0x7235	爵 (<CJK Ideograph>)
10033	0x7246	牆 (<CJK Ideograph>)
10034	0x7370	獰 (<CJK Ideograph>)
10035	0x7372	獲 (<CJK Ideograph>)
10036	0x74A9	璩 (<CJK Ideograph>)
10037	0x74B0	環 (<CJK Ideograph>)
10038	0x74A6	璦 (<CJK Ideograph>)
10039	0x74A8	璨 (<CJK Ideograph>)
10040	0x7646	癆 (<CJK Ideograph>)
10041	0x7642	療 (<CJK Ideograph>)
10042	0x764C	癌 (<CJK Ideograph>)
10043	0x76EA	盪 (<CJK Ideograph>)
10044	0x77B3	瞳 (<CJK Ideograph>)
10045	0x77AA	瞪 (<CJK Ideograph>)
10046	0x77B0	瞰 (<CJK Ideograph>)
10047	0x77AC	瞬 (<CJK Ideograph>)
"#

end Verif.Files.Big5
