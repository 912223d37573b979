import Verif.Text

/-! Generated by tools/gen_files.py: verbatim copies of parts of files of /repo. -/

namespace Verif.Files.Big5

/-- encoding_tables/whatwg/index-big5.txt:8906-9062 -/
noncomputable def index64 : List Text := lines! r#"10048	0x77A7	瞧 (<CJK Ideograph>)
10049	0x77AD	瞭 (<CJK Ideograph>)
10050	0x77EF	矯 (<CJK Ideograph>)
10051	0x78F7	磷 (<CJK Ideograph>)
10052	0x78FA	磺 (<CJK Ideograph>)
10053	0x78F4	磴 (<CJK Ideograph>)
10054	0x78EF	磯 (<CJK Ideograph>)
10055	0x7901	礁 (<CJK Ideograph>)
10056	0x79A7	禧 (<CJK Ideograph>)
10057	0x79AA	禪 (<CJK Ideograph>)
10058	0x7A57	穗 (<CJK Ideograph>)
10059	0x7ABF	窿 (<CJK Ideograph>)
10060	0x7C07	簇 (<CJK Ideograph>)
10061	0x7C0D	簍 (<CJK Ideograph>)
10062	0x7BFE	篾 (<CJK Ideograph>)
10063	0x7BF7	篷 (<CJK Ideograph>)
10064	0x7C0C	簌 (<CJK Ideograph>)
10065	0x7BE0	篠 (<CJK Ideograph>)
10066	0x7CE0	糠 (<CJK Ideograph>)
10067	0x7CDC	糜 (<CJK Ideograph>)
10068	0x7CDE	糞 (<CJK Ideograph>)
10069	0x7CE2	糢 (<CJK Ideograph>)
10070	0x7CDF	糟 (<CJK Ideograph>)
10071	0x7CD9	糙 (<CJK Ideograph>)
10072	0x7CDD	糝 (<CJK Ideograph>)
10073	0x7E2E	縮 (<CJK Ideograph>)
10074	0x7E3E	績 (<CJK Ideograph>)
10075	0x7E46	繆 (<CJK Ideograph>)
10076	0x7E37	縷 (<CJK Ideograph>)
10077	0x7E32	縲 (<CJK Ideograph>)
10078	0x7E43	繃 (<CJK Ideograph>)
10079	0x7E2B	縫 (<CJK Ideograph>)
10080	0x7E3D	總 (<CJK Ideograph>)
10081	0x7E31	縱 (<CJK Ideograph>)
10082	0x7E45	繅 (<CJK Ideograph>)
10083	0x7E41	繁 (<CJK Ideograph>)
10084	0x7E34	縴 (<CJK Ideograph>)
10085	0x7E39	縹 (<CJK Ideograph>)
10086	0x7E48	繈 (<CJK Ideograph>)
10087	0x7E35	縵 (<CJK Ideograph>)
10088	0x7E3F	縿 (<CJK Ideograph>)
10089	0x7E2F	縯 (<CJK Ideograph>)
10090	0x7F44	罄 (<CJK Ideograph>)
10091	0x7FF3	翳 (<CJK Ideograph>)
10092	0x7FFC	翼 (<CJK Ideograph>)
10093	0x8071	聱 (<CJK Ideograph>)
10094	0x8072	聲 (<CJK Ideograph>)
10095	0x8070	聰 (<CJK Ideograph>)
10096	0x806F	聯 (<CJK Ideograph>)
10097	0x8073	聳 (<CJK Ideograph>)
10098	0x81C6	臆 (<CJK Ideograph>)
10099	0x81C3	臃 (<CJK Ideograph>)
10100	0x81BA	膺 (<CJK Ideograph>)
10101	0x81C2	臂 (<CJK Ideograph>)
10102	0x81C0	臀 (<CJK Ideograph>)
10103	0x81BF	膿 (<CJK Ideograph>)
10104	0x81BD	膽 (<CJK Ideograph>)
10105	0x81C9	臉 (<CJK Ideograph>)
10106	0x81BE	膾 (<CJK Ideograph>)
10107	0x81E8	臨 (<CJK Ideograph>)
10108	0x8209	舉 (<CJK Ideograph>)
10109	0x8271	艱 (<CJK Ideograph>)
10110	0x85AA	薪 (<CJK Ideograph>)
10111	0x8584	薄 (<CJK Ideograph>)
10112	0x857E	蕾 (<CJK Ideograph>)
10113	0x859C	薜 (<CJK Ideograph>)
10114	0x8591	薑 (<CJK Ideograph>)
10115	0x8594	薔 (<CJK Ideograph>)
10116	0x85AF	薯 (<CJK Ideograph>)
10117	0x859B	薛 (<CJK Ideograph>)
10118	0x8587	薇 (<CJK Ideograph>)
10119	0x85A8	薨 (<CJK Ideograph>)
10120	0x858A	薊 (<CJK Ideograph>)
10121	0x8667	虧 (<CJK Ideograph>)
10122	0x87C0	蟀 (<CJK Ideograph>)
10123	0x87D1	蟑 (<CJK Ideograph>)
10124	0x87B3	螳 (<CJK Ideograph>)
10125	0x87D2	蟒 (<CJK Ideograph>)
10126	0x87C6	蟆 (<CJK Ideograph>)
10127	0x87AB	螫 (<CJK Ideograph>)
10128	0x87BB	螻 (<CJK Ideograph>)
10129	0x87BA	螺 (<CJK Ideograph>)
10130	0x87C8	蟈 (<CJK Ideograph>)
10131	0x87CB	蟋 (<CJK Ideograph>)
10132	0x893B	褻 (<CJK Ideograph>)
10133	0x8936	褶 (<CJK Ideograph>)
10134	0x8944	襄 (<CJK Ideograph>)
10135	0x8938	褸 (<CJK Ideograph>)
10136	0x893D	褽 (<CJK Ideograph>)
10137	0x89AC	覬 (<CJK Ideograph>)
10138	0x8B0E	謎 (<CJK Ideograph>)
10139	0x8B17	謗 (<CJK Ideograph>)
10140	0x8B19	謙 (<CJK Ideograph>)
10141	0x8B1B	講 (<CJK Ideograph>)
10142	0x8B0A	謊 (<CJK Ideograph>)
10143	0x8B20	謠 (<CJK Ideograph>)
10144	0x8B1D	謝 (<CJK Ideograph>)
10145	0x8B04	謄 (<CJK Ideograph>)
10146	0x8B10	謐 (<CJK Ideograph>)
10147	0x8C41	豁 (<CJK Ideograph>)
10148	0x8C3F	谿 (<CJK Ideograph>)
10149	0x8C73	豳 (<CJK Ideograph>)
10150	0x8CFA	賺 (<CJK Ideograph>)
10151	0x8CFD	賽 (<CJK Ideograph>)
10152	0x8CFC	購 (<CJK Ideograph>)
10153	0x8CF8	賸 (<CJK Ideograph>)
10154	0x8CFB	賻 (<CJK Ideograph>)
10155	0x8DA8	趨 (<CJK Ideograph>)
10156	0x8E49	蹉 (<CJK Ideograph>)
10157	0x8E4B	蹋 (<CJK Ideograph>)
10158	0x8E48	蹈 (<CJK Ideograph>)
10159	0x8E4A	蹊 (<CJK Ideograph>)
10160	0x8F44	轄 (<CJK Ideograph>)
10161	0x8F3E	輾 (<CJK Ideograph>)
10162	0x8F42	轂 (<CJK Ideograph>)
10163	0x8F45	轅 (<CJK Ideograph>)
10164	0x8F3F	輿 (<CJK Ideograph>)
10165	0x907F	避 (<CJK Ideograph>)
10166	0x907D	遽 (<CJK Ideograph>)
10167	0x9084	還 (<CJK Ideograph>)
10168	0x9081	邁 (<CJK Ideograph>)
10169	0x9082	邂 (<CJK Ideograph>)
10170	0x9080	邀 (<CJK Ideograph>)
10171	0x9139	鄹 (<CJK Ideograph>)
10172	0x91A3	醣 (<CJK Ideograph>)
10173	0x919E	醞 (<CJK Ideograph>)
10174	0x919C	醜 (<CJK Ideograph>)
10175	0x934D	鍍 (<CJK Ideograph>)
10176	0x9382	鎂 (<CJK Ideograph>)
10177	0x9328	錨 (<CJK Ideograph>)
10178	0x9375	鍵 (<CJK Ideograph>)
10179	0x934A	鍊 (<CJK Ideograph>)
10180	0x9365	鍥 (<CJK Ideograph>)
10181	0x934B	鍋 (<CJK Ideograph>)
10182	0x9318	錘 (<CJK Ideograph>)
10183	0x937E	鍾 (<CJK Ideograph>)
10184	0x936C	鍬 (<CJK Ideograph>)
10185	0x935B	鍛 (<CJK Ideograph>)
10186	0x9370	鍰 (<CJK Ideograph>)
10187	0x935A	鍚 (<CJK Ideograph>)
10188	0x9354	鍔 (<CJK Ideograph>)
10189	0x95CA	闊 (<CJK Ideograph>)
10190	0x95CB	闋 (<CJK Ideograph>)
10191	0x95CC	闌 (<CJK Ideograph>)
10192	0x95C8	闈 (<CJK Ideograph>)
10193	0x95C6	闆 (<CJK Ideograph>)
10194	0x96B1	隱 (<CJK Ideograph>)
10195	0x96B8	隸 (<CJK Ideograph>)
10196	0x96D6	雖 (<CJK Ideograph>)
10197	0x971C	霜 (<CJK Ideograph>)
10198	0x971E	霞 (<CJK Ideograph>)
10199	0x97A0	鞠 (<CJK Ideograph>)
10200	0x97D3	韓 (<CJK Ideograph>)
10201	0x9846	顆 (<CJK Ideograph>)
10202	0x98B6	颶 (<CJK Ideograph>)
10203	0x9935	餵 (<CJK Ideograph>)
10204	0x9A01	騁 (<CJK Ideograph>)
"#

/-- encoding_tables/whatwg/index-big5.txt:9063-9219 -/
noncomputable def index65 : List Text := lines! r#"10205	0x99FF	駿 (<CJK Ideograph>)
10206	0x9BAE	鮮 (<CJK Ideograph>)
10207	0x9BAB	鮫 (<CJK Ideograph>)
10208	0x9BAA	鮪 (<CJK Ideograph>)
10209	0x9BAD	鮭 (<CJK Ideograph>)
10210	0x9D3B	鴻 (<CJK Ideograph>)
10211	0x9D3F	鴿 (<CJK Ideograph>)
10212	0x9E8B	麋 (<CJK Ideograph>)
10213	0x9ECF	黏 (<CJK Ideograph>)
10214	0x9EDE	點 (<CJK Ideograph>)
10215	0x9EDC	黜 (<CJK Ideograph>)
10216	0x9EDD	黝 (<CJK Ideograph>)
10217	0x9EDB	黛 (<CJK Ideograph>)
10218	0x9F3E	鼾 (<CJK Ideograph>)
10219	0x9F4B	齋 (<CJK Ideograph>)
10220	0x53E2	叢 (<CJK Ideograph>)
10221	0x5695	嚕 (<CJK Ideograph>)
10222	0x56AE	嚮 (<CJK Ideograph>)
10223	0x58D9	壙 (<CJK Ideograph>)
10224	0x58D8	壘 (<CJK Ideograph>)
10225	0x5B38	嬸 (<CJK Ideograph>)
10226	0x5F5D	彝 (<CJK Ideograph>)
10227	0x61E3	懣 (<CJK Ideograph>)
10228	0x6233	戳 (<CJK Ideograph>)
10229	0x64F4	擴 (<CJK Ideograph>)
10230	0x64F2	擲 (<CJK Ideograph>)
10231	0x64FE	擾 (<CJK Ideograph>)
10232	0x6506	攆 (<CJK Ideograph>)
10233	0x64FA	擺 (<CJK Ideograph>)
10234	0x64FB	擻 (<CJK Ideograph>)
10235	0x64F7	擷 (<CJK Ideograph>)
10236	0x65B7	斷 (<CJK Ideograph>)
10237	0x66DC	曜 (<CJK Ideograph>)
10238	0x6726	朦 (<CJK Ideograph>)
10239	0x6AB3	檳 (<CJK Ideograph>)
10240	0x6AAC	檬 (<CJK Ideograph>)
10241	0x6AC3	櫃 (<CJK Ideograph>)
10242	0x6ABB	檻 (<CJK Ideograph>)
10243	0x6AB8	檸 (<CJK Ideograph>)
10244	0x6AC2	櫂 (<CJK Ideograph>)
10245	0x6AAE	檮 (<CJK Ideograph>)
10246	0x6AAF	檯 (<CJK Ideograph>)
10247	0x6B5F	歟 (<CJK Ideograph>)
10248	0x6B78	歸 (<CJK Ideograph>)
10249	0x6BAF	殯 (<CJK Ideograph>)
10250	0x7009	瀉 (<CJK Ideograph>)
10251	0x700B	瀋 (<CJK Ideograph>)
10252	0x6FFE	濾 (<CJK Ideograph>)
10253	0x7006	瀆 (<CJK Ideograph>)
10254	0x6FFA	濺 (<CJK Ideograph>)
10255	0x7011	瀑 (<CJK Ideograph>)
10256	0x700F	瀏 (<CJK Ideograph>)
10257	0x71FB	燻 (<CJK Ideograph>)
10258	0x71FC	燼 (<CJK Ideograph>)
10259	0x71FE	燾 (<CJK Ideograph>)
10260	0x71F8	燸 (<CJK Ideograph>)
10261	0x7377	獷 (<CJK Ideograph>)
10262	0x7375	獵 (<CJK Ideograph>)
10263	0x74A7	璧 (<CJK Ideograph>)
10264	0x74BF	璿 (<CJK Ideograph>)
10265	0x7515	甕 (<CJK Ideograph>)
10266	0x7656	癖 (<CJK Ideograph>)
10267	0x7658	癘 (<CJK Ideograph>)
10268	0x7652	癒 (<CJK Ideograph>)
10269	0x77BD	瞽 (<CJK Ideograph>)
10270	0x77BF	瞿 (<CJK Ideograph>)
10271	0x77BB	瞻 (<CJK Ideograph>)
10272	0x77BC	瞼 (<CJK Ideograph>)
10273	0x790E	礎 (<CJK Ideograph>)
10274	0x79AE	禮 (<CJK Ideograph>)
10275	0x7A61	穡 (<CJK Ideograph>)
10276	0x7A62	穢 (<CJK Ideograph>)
10277	0x7A60	穠 (<CJK Ideograph>)
10278	0x7AC4	竄 (<CJK Ideograph>)
10279	0x7AC5	竅 (<CJK Ideograph>)
10280	0x7C2B	簫 (<CJK Ideograph>)
10281	0x7C27	簧 (<CJK Ideograph>)
10282	0x7C2A	簪 (<CJK Ideograph>)
10283	0x7C1E	簞 (<CJK Ideograph>)
10284	0x7C23	簣 (<CJK Ideograph>)
10285	0x7C21	簡 (<CJK Ideograph>)
10286	0x7CE7	糧 (<CJK Ideograph>)
10287	0x7E54	織 (<CJK Ideograph>)
10288	0x7E55	繕 (<CJK Ideograph>)
10289	0x7E5E	繞 (<CJK Ideograph>)
10290	0x7E5A	繚 (<CJK Ideograph>)
10291	0x7E61	繡 (<CJK Ideograph>)
10292	0x7E52	繒 (<CJK Ideograph>)
10293	0x7E59	繙 (<CJK Ideograph>)
10294	0x7F48	罈 (<CJK Ideograph>)
10295	0x7FF9	翹 (<CJK Ideograph>)
10296	0x7FFB	翻 (<CJK Ideograph>)
10297	0x8077	職 (<CJK Ideograph>)
10298	0x8076	聶 (<CJK Ideograph>)
10299	0x81CD	臍 (<CJK Ideograph>)
10300	0x81CF	臏 (<CJK Ideograph>)
10301	0x820A	舊 (<CJK Ideograph>)
10302	0x85CF	藏 (<CJK Ideograph>)
10303	0x85A9	薩 (<CJK Ideograph>)
10304	0x85CD	藍 (<CJK Ideograph>)
10305	0x85D0	藐 (<CJK Ideograph>)
10306	0x85C9	藉 (<CJK Ideograph>)
10307	0x85B0	薰 (<CJK Ideograph>)
10308	0x85BA	薺 (<CJK Ideograph>)
10309	0x85B9	薹 (<CJK Ideograph>)
10310	0x85A6	薦 (<CJK Ideograph>)
10311	0x87EF	蟯 (<CJK Ideograph>)
10312	0x87EC	蟬 (<CJK Ideograph>)
10313	0x87F2	蟲 (<CJK Ideograph>)
10314	0x87E0	蟠 (<CJK Ideograph>)
10315	0x8986	覆 (<CJK Ideograph>)
10316	0x89B2	覲 (<CJK Ideograph>)
10317	0x89F4	觴 (<CJK Ideograph>)
10318	0x8B28	謨 (<CJK Ideograph>)
10319	0x8B39	謹 (<CJK Ideograph>)
10320	0x8B2C	謬 (<CJK Ideograph>)
10321	0x8B2B	謫 (<CJK Ideograph>)
10322	0x8C50	豐 (<CJK Ideograph>)
10323	0x8D05	贅 (<CJK Ideograph>)
10324	0x8E59	蹙 (<CJK Ideograph>)
10325	0x8E63	蹣 (<CJK Ideograph>)
10326	0x8E66	蹦 (<CJK Ideograph>)
10327	0x8E64	蹤 (<CJK Ideograph>)
10328	0x8E5F	蹟 (<CJK Ideograph>)
10329	0x8E55	蹕 (<CJK Ideograph>)
10330	0x8EC0	軀 (<CJK Ideograph>)
10331	0x8F49	轉 (<CJK Ideograph>)
10332	0x8F4D	轍 (<CJK Ideograph>)
10333	0x9087	邇 (<CJK Ideograph>)
10334	0x9083	邃 (<CJK Ideograph>)
10335	0x9088	邈 (<CJK Ideograph>)
10336	0x91AB	醫 (<CJK Ideograph>)
10337	0x91AC	醬 (<CJK Ideograph>)
10338	0x91D0	釐 (<CJK Ideograph>)
10339	0x9394	鎔 (<CJK Ideograph>)
10340	0x938A	鎊 (<CJK Ideograph>)
10341	0x9396	鎖 (<CJK Ideograph>)
10342	0x93A2	鎢 (<CJK Ideograph>)
10343	0x93B3	鎳 (<CJK Ideograph>)
10344	0x93AE	鎮 (<CJK Ideograph>)
10345	0x93AC	鎬 (<CJK Ideograph>)
10346	0x93B0	鎰 (<CJK Ideograph>)
10347	0x9398	鎘 (<CJK Ideograph>)
10348	0x939A	鎚 (<CJK Ideograph>)
10349	0x9397	鎗 (<CJK Ideograph>)
10350	0x95D4	闔 (<CJK Ideograph>)
10351	0x95D6	闖 (<CJK Ideograph>)
10352	0x95D0	闐 (<CJK Ideograph>)
10353	0x95D5	闕 (<CJK Ideograph>)
10354	0x96E2	離 (<CJK Ideograph>)
10355	0x96DC	雜 (<CJK Ideograph>)
10356	0x96D9	雙 (<CJK Ideograph>)
10357	0x96DB	雛 (<CJK Ideograph>)
10358	0x96DE	雞 (<CJK Ideograph>)
10359	0x9724	霤 (<CJK Ideograph>)
10360	0x97A3	鞣 (<CJK Ideograph>)
10361	0x97A6	鞦 (<CJK Ideograph>)
"#

/-- encoding_tables/whatwg/index-big5.txt:9220-9376 -/
noncomputable def index66 : List Text := lines! r#"10362	0x97AD	鞭 (<CJK Ideograph>)
10363	0x97F9	韹 (<CJK Ideograph>)
10364	0x984D	額 (<CJK Ideograph>)
10365	0x984F	顏 (<CJK Ideograph>)
10366	0x984C	題 (<CJK Ideograph>)
10367	0x984E	顎 (<CJK Ideograph>)
10368	0x9853	顓 (<CJK Ideograph>)
10369	0x98BA	颺 (<CJK Ideograph>)
10370	0x993E	餾 (<CJK Ideograph>)
10371	0x993F	餿 (<CJK Ideograph>)
10372	0x993D	餽 (<CJK Ideograph>)
10373	0x992E	餮 (<CJK Ideograph>)
10374	0x99A5	馥 (<CJK Ideograph>)
10375	0x9A0E	騎 (<CJK Ideograph>)
10376	0x9AC1	髁 (<CJK Ideograph>)
10377	0x9B03	鬃 (<CJK Ideograph>)
10378	0x9B06	鬆 (<CJK Ideograph>)
10379	0x9B4F	魏 (<CJK Ideograph>)
10380	0x9B4E	魎 (<CJK Ideograph>)
10381	0x9B4D	魍 (<CJK Ideograph>)
10382	0x9BCA	鯊 (<CJK Ideograph>)
10383	0x9BC9	鯉 (<CJK Ideograph>)
10384	0x9BFD	鯽 (<CJK Ideograph>)
10385	0x9BC8	鯈 (<CJK Ideograph>)
10386	0x9BC0	鯀 (<CJK Ideograph>)
10387	0x9D51	鵑 (<CJK Ideograph>)
10388	0x9D5D	鵝 (<CJK Ideograph>)
10389	0x9D60	鵠 (<CJK Ideograph>)
10390	0x9EE0	黠 (<CJK Ideograph>)
10391	0x9F15	鼕 (<CJK Ideograph>)
10392	0x9F2C	鼬 (<CJK Ideograph>)
10393	0x5133	儳 (<CJK Ideograph>)
10394	0x56A5	嚥 (<CJK Ideograph>)
10395	0x58DE	壞 (<CJK Ideograph>)
10396	0x58DF	壟 (<CJK Ideograph>)
10397	0x58E2	壢 (<CJK Ideograph>)
10398	0x5BF5	寵 (<CJK Ideograph>)
10399	0x9F90	龐 (<CJK Ideograph>)
10400	0x5EEC	廬 (<CJK Ideograph>)
10401	0x61F2	懲 (<CJK Ideograph>)
10402	0x61F7	懷 (<CJK Ideograph>)
10403	0x61F6	懶 (<CJK Ideograph>)
10404	0x61F5	懵 (<CJK Ideograph>)
10405	0x6500	攀 (<CJK Ideograph>)
10406	0x650F	攏 (<CJK Ideograph>)
10407	0x66E0	曠 (<CJK Ideograph>)
10408	0x66DD	曝 (<CJK Ideograph>)
10409	0x6AE5	櫥 (<CJK Ideograph>)
10410	0x6ADD	櫝 (<CJK Ideograph>)
10411	0x6ADA	櫚 (<CJK Ideograph>)
10412	0x6AD3	櫓 (<CJK Ideograph>)
10413	0x701B	瀛 (<CJK Ideograph>)
10414	0x701F	瀟 (<CJK Ideograph>)
10415	0x7028	瀨 (<CJK Ideograph>)
10416	0x701A	瀚 (<CJK Ideograph>)
10417	0x701D	瀝 (<CJK Ideograph>)
10418	0x7015	瀕 (<CJK Ideograph>)
10419	0x7018	瀘 (<CJK Ideograph>)
10420	0x7206	爆 (<CJK Ideograph>)
10421	0x720D	爍 (<CJK Ideograph>)
10422	0x7258	牘 (<CJK Ideograph>)
10423	0x72A2	犢 (<CJK Ideograph>)
10424	0x7378	獸 (<CJK Ideograph>)
10425	0x737A	獺 (<CJK Ideograph>)
10426	0x74BD	璽 (<CJK Ideograph>)
10427	0x74CA	瓊 (<CJK Ideograph>)
10428	0x74E3	瓣 (<CJK Ideograph>)
10429	0x7587	疇 (<CJK Ideograph>)
10430	0x7586	疆 (<CJK Ideograph>)
10431	0x765F	癟 (<CJK Ideograph>)
10432	0x7661	癡 (<CJK Ideograph>)
10433	0x77C7	矇 (<CJK Ideograph>)
10434	0x7919	礙 (<CJK Ideograph>)
10435	0x79B1	禱 (<CJK Ideograph>)
10436	0x7A6B	穫 (<CJK Ideograph>)
10437	0x7A69	穩 (<CJK Ideograph>)
10438	0x7C3E	簾 (<CJK Ideograph>)
10439	0x7C3F	簿 (<CJK Ideograph>)
10440	0x7C38	簸 (<CJK Ideograph>)
10441	0x7C3D	簽 (<CJK Ideograph>)
10442	0x7C37	簷 (<CJK Ideograph>)
10443	0x7C40	籀 (<CJK Ideograph>)
10444	0x7E6B	繫 (<CJK Ideograph>)
10445	0x7E6D	繭 (<CJK Ideograph>)
10446	0x7E79	繹 (<CJK Ideograph>)
10447	0x7E69	繩 (<CJK Ideograph>)
10448	0x7E6A	繪 (<CJK Ideograph>)
10449	0x7F85	羅 (<CJK Ideograph>)
10450	0x7E73	繳 (<CJK Ideograph>)
10451	0x7FB6	羶 (<CJK Ideograph>)
10452	0x7FB9	羹 (<CJK Ideograph>)
10453	0x7FB8	羸 (<CJK Ideograph>)
10454	0x81D8	臘 (<CJK Ideograph>)
10455	0x85E9	藩 (<CJK Ideograph>)
10456	0x85DD	藝 (<CJK Ideograph>)
10457	0x85EA	藪 (<CJK Ideograph>)
10458	0x85D5	藕 (<CJK Ideograph>)
10459	0x85E4	藤 (<CJK Ideograph>)
10460	0x85E5	藥 (<CJK Ideograph>)
10461	0x85F7	藷 (<CJK Ideograph>)
10462	0x87FB	蟻 (<CJK Ideograph>)
10463	0x8805	蠅 (<CJK Ideograph>)
10464	0x880D	蠍 (<CJK Ideograph>)
10465	0x87F9	蟹 (<CJK Ideograph>)
10466	0x87FE	蟾 (<CJK Ideograph>)
10467	0x8960	襠 (<CJK Ideograph>)
10468	0x895F	襟 (<CJK Ideograph>)
10469	0x8956	襖 (<CJK Ideograph>)
10470	0x895E	襞 (<CJK Ideograph>)
10471	0x8B41	譁 (<CJK Ideograph>)
10472	0x8B5C	譜 (<CJK Ideograph>)
10473	0x8B58	識 (<CJK Ideograph>)
10474	0x8B49	證 (<CJK Ideograph>)
10475	0x8B5A	譚 (<CJK Ideograph>)
10476	0x8B4E	譎 (<CJK Ideograph>)
10477	0x8B4F	譏 (<CJK Ideograph>)
10478	0x8B46	譆 (<CJK Ideograph>)
10479	0x8B59	譙 (<CJK Ideograph>)
10480	0x8D08	贈 (<CJK Ideograph>)
10481	0x8D0A	贊 (<CJK Ideograph>)
10482	0x8E7C	蹼 (<CJK Ideograph>)
10483	0x8E72	蹲 (<CJK Ideograph>)
10484	0x8E87	躇 (<CJK Ideograph>)
10485	0x8E76	蹶 (<CJK Ideograph>)
10486	0x8E6C	蹬 (<CJK Ideograph>)
10487	0x8E7A	蹺 (<CJK Ideograph>)
10488	0x8E74	蹴 (<CJK Ideograph>)
10489	0x8F54	轔 (<CJK Ideograph>)
10490	0x8F4E	轎 (<CJK Ideograph>)
10491	0x8FAD	辭 (<CJK Ideograph>)
10492	0x908A	邊 (<CJK Ideograph>)
10493	0x908B	邋 (<CJK Ideograph>)
10494	0x91B1	醱 (<CJK Ideograph>)
10495	0x91AE	醮 (<CJK Ideograph>)
10496	0x93E1	鏡 (<CJK Ideograph>)
10497	0x93D1	鏑 (<CJK Ideograph>)
10498	0x93DF	鏟 (<CJK Ideograph>)
10499	0x93C3	鏃 (<CJK Ideograph>)
10500	0x93C8	鏈 (<CJK Ideograph>)
10501	0x93DC	鏜 (<CJK Ideograph>)
10502	0x93DD	鏝 (<CJK Ideograph>)
10503	0x93D6	鏖 (<CJK Ideograph>)
10504	0x93E2	鏢 (<CJK Ideograph>)
10505	0x93CD	鏍 (<CJK Ideograph>)
10506	0x93D8	鏘 (<CJK Ideograph>)
10507	0x93E4	鏤 (<CJK Ideograph>)
10508	0x93D7	鏗 (<CJK Ideograph>)
10509	0x93E8	鏨 (<CJK Ideograph>)
10510	0x95DC	關 (<CJK Ideograph>)
10511	0x96B4	隴 (<CJK Ideograph>)
10512	0x96E3	難 (<CJK Ideograph>)
10513	0x972A	霪 (<CJK Ideograph>)
10514	0x9727	霧 (<CJK Ideograph>)
10515	0x9761	靡 (<CJK Ideograph>)
10516	0x97DC	韜 (<CJK Ideograph>)
10517	0x97FB	韻 (<CJK Ideograph>)
10518	0x985E	類 (<CJK Ideograph>)
"#

/-- encoding_tables/whatwg/index-big5.txt:9377-9533 -/
noncomputable def index67 : List Text := lines! r#"10519	0x9858	願 (<CJK Ideograph>)
10520	0x985B	顛 (<CJK Ideograph>)
10521	0x98BC	颼 (<CJK Ideograph>)
10522	0x9945	饅 (<CJK Ideograph>)
10523	0x9949	饉 (<CJK Ideograph>)
10524	0x9A16	騖 (<CJK Ideograph>)
10525	0x9A19	騙 (<CJK Ideograph>)
10526	0x9B0D	鬍 (<CJK Ideograph>)
10527	0x9BE8	鯨 (<CJK Ideograph>)
10528	0x9BE7	鯧 (<CJK Ideograph>)
10529	0x9BD6	鯖 (<CJK Ideograph>)
10530	0x9BDB	鯛 (<CJK Ideograph>)
10531	0x9D89	鶉 (<CJK Ideograph>)
10532	0x9D61	鵡 (<CJK Ideograph>)
10533	0x9D72	鵲 (<CJK Ideograph>)
10534	0x9D6A	鵪 (<CJK Ideograph>)
10535	0x9D6C	鵬 (<CJK Ideograph>)
10536	0x9E92	麒 (<CJK Ideograph>)
10537	0x9E97	麗 (<CJK Ideograph>)
10538	0x9E93	麓 (<CJK Ideograph>)
10539	0x9EB4	麴 (<CJK Ideograph>)
10540	0x52F8	勸 (<CJK Ideograph>)
10541	0x56A8	嚨 (<CJK Ideograph>)
10542	0x56B7	嚷 (<CJK Ideograph>)
10543	0x56B6	嚶 (<CJK Ideograph>)
10544	0x56B4	嚴 (<CJK Ideograph>)
10545	0x56BC	嚼 (<CJK Ideograph>)
10546	0x58E4	壤 (<CJK Ideograph>)
10547	0x5B40	孀 (<CJK Ideograph>)
10548	0x5B43	孃 (<CJK Ideograph>)
10549	0x5B7D	孽 (<CJK Ideograph>)
10550	0x5BF6	寶 (<CJK Ideograph>)
10551	0x5DC9	巉 (<CJK Ideograph>)
10552	0x61F8	懸 (<CJK Ideograph>)
10553	0x61FA	懺 (<CJK Ideograph>)
10554	0x6518	攘 (<CJK Ideograph>)
10555	0x6514	攔 (<CJK Ideograph>)
10556	0x6519	攙 (<CJK Ideograph>)
10557	0x66E6	曦 (<CJK Ideograph>)
10558	0x6727	朧 (<CJK Ideograph>)
10559	0x6AEC	櫬 (<CJK Ideograph>)
10560	0x703E	瀾 (<CJK Ideograph>)
10561	0x7030	瀰 (<CJK Ideograph>)
10562	0x7032	瀲 (<CJK Ideograph>)
10563	0x7210	爐 (<CJK Ideograph>)
10564	0x737B	獻 (<CJK Ideograph>)
10565	0x74CF	瓏 (<CJK Ideograph>)
10566	0x7662	癢 (<CJK Ideograph>)
10567	0x7665	癥 (<CJK Ideograph>)
10568	0x7926	礦 (<CJK Ideograph>)
10569	0x792A	礪 (<CJK Ideograph>)
10570	0x792C	礬 (<CJK Ideograph>)
10571	0x792B	礫 (<CJK Ideograph>)
10572	0x7AC7	竇 (<CJK Ideograph>)
10573	0x7AF6	競 (<CJK Ideograph>)
10574	0x7C4C	籌 (<CJK Ideograph>)
10575	0x7C43	籃 (<CJK Ideograph>)
10576	0x7C4D	籍 (<CJK Ideograph>)
10577	0x7CEF	糯 (<CJK Ideograph>)
10578	0x7CF0	糰 (<CJK Ideograph>)
10579	0x8FAE	辮 (<CJK Ideograph>)
10580	0x7E7D	繽 (<CJK Ideograph>)
10581	0x7E7C	繼 (<CJK Ideograph>)
10582	0x7E82	纂 (<CJK Ideograph>)
10583	0x7F4C	罌 (<CJK Ideograph>)
10584	0x8000	耀 (<CJK Ideograph>)
10585	0x81DA	臚 (<CJK Ideograph>)
10586	0x8266	艦 (<CJK Ideograph>)
10587	0x85FB	藻 (<CJK Ideograph>)
10588	0x85F9	藹 (<CJK Ideograph>)
10589	0x8611	蘑 (<CJK Ideograph>)
10590	0x85FA	藺 (<CJK Ideograph>)
10591	0x8606	蘆 (<CJK Ideograph>)
10592	0x860B	蘋 (<CJK Ideograph>)
10593	0x8607	蘇 (<CJK Ideograph>)
10594	0x860A	蘊 (<CJK Ideograph>)
10595	0x8814	蠔 (<CJK Ideograph>)
10596	0x8815	蠕 (<CJK Ideograph>)
10597	0x8964	襤 (<CJK Ideograph>)
10598	0x89BA	覺 (<CJK Ideograph>)
10599	0x89F8	觸 (<CJK Ideograph>)
10600	0x8B70	議 (<CJK Ideograph>)
10601	0x8B6C	譬 (<CJK Ideograph>)
10602	0x8B66	警 (<CJK Ideograph>)
10603	0x8B6F	譯 (<CJK Ideograph>)
10604	0x8B5F	譟 (<CJK Ideograph>)
10605	0x8B6B	譫 (<CJK Ideograph>)
10606	0x8D0F	贏 (<CJK Ideograph>)
10607	0x8D0D	贍 (<CJK Ideograph>)
10608	0x8E89	躉 (<CJK Ideograph>)
10609	0x8E81	躁 (<CJK Ideograph>)
10610	0x8E85	躅 (<CJK Ideograph>)
10611	0x8E82	躂 (<CJK Ideograph>)
10612	0x91B4	醴 (<CJK Ideograph>)
10613	0x91CB	釋 (<CJK Ideograph>)
10614	0x9418	鐘 (<CJK Ideograph>)
10615	0x9403	鐃 (<CJK Ideograph>)
10616	0x93FD	鏽 (<CJK Ideograph>)
10617	0x95E1	闡 (<CJK Ideograph>)
10618	0x9730	霰 (<CJK Ideograph>)
10619	0x98C4	飄 (<CJK Ideograph>)
10620	0x9952	饒 (<CJK Ideograph>)
10621	0x9951	饑 (<CJK Ideograph>)
10622	0x99A8	馨 (<CJK Ideograph>)
10623	0x9A2B	騫 (<CJK Ideograph>)
10624	0x9A30	騰 (<CJK Ideograph>)
10625	0x9A37	騷 (<CJK Ideograph>)
10626	0x9A35	騵 (<CJK Ideograph>)
10627	0x9C13	鰓 (<CJK Ideograph>)
10628	0x9C0D	鰍 (<CJK Ideograph>)
10629	0x9E79	鹹 (<CJK Ideograph>)
10630	0x9EB5	麵 (<CJK Ideograph>)
10631	0x9EE8	黨 (<CJK Ideograph>)
10632	0x9F2F	鼯 (<CJK Ideograph>)
10633	0x9F5F	齟 (<CJK Ideograph>)
10634	0x9F63	齣 (<CJK Ideograph>)
10635	0x9F61	齡 (<CJK Ideograph>)
10636	0x5137	儷 (<CJK Ideograph>)
10637	0x5138	儸 (<CJK Ideograph>)
10638	0x56C1	囁 (<CJK Ideograph>)
10639	0x56C0	囀 (<CJK Ideograph>)
10640	0x56C2	囂 (<CJK Ideograph>)
10641	0x5914	夔 (<CJK Ideograph>)
10642	0x5C6C	屬 (<CJK Ideograph>)
10643	0x5DCD	巍 (<CJK Ideograph>)
10644	0x61FC	懼 (<CJK Ideograph>)
10645	0x61FE	懾 (<CJK Ideograph>)
10646	0x651D	攝 (<CJK Ideograph>)
10647	0x651C	攜 (<CJK Ideograph>)
10648	0x6595	斕 (<CJK Ideograph>)
10649	0x66E9	曩 (<CJK Ideograph>)
10650	0x6AFB	櫻 (<CJK Ideograph>)
10651	0x6B04	欄 (<CJK Ideograph>)
10652	0x6AFA	櫺 (<CJK Ideograph>)
10653	0x6BB2	殲 (<CJK Ideograph>)
10654	0x704C	灌 (<CJK Ideograph>)
10655	0x721B	爛 (<CJK Ideograph>)
10656	0x72A7	犧 (<CJK Ideograph>)
10657	0x74D6	瓖 (<CJK Ideograph>)
10658	0x74D4	瓔 (<CJK Ideograph>)
10659	0x7669	癩 (<CJK Ideograph>)
10660	0x77D3	矓 (<CJK Ideograph>)
10661	0x7C50	籐 (<CJK Ideograph>)
10662	0x7E8F	纏 (<CJK Ideograph>)
10663	0x7E8C	續 (<CJK Ideograph>)
10664	0x7FBC	羼 (<CJK Ideograph>)
10665	0x8617	蘗 (<CJK Ideograph>)
10666	0x862D	蘭 (<CJK Ideograph>)
10667	0x861A	蘚 (<CJK Ideograph>)
10668	0x8823	蠣 (<CJK Ideograph>)
10669	0x8822	蠢 (<CJK Ideograph>)
10670	0x8821	蠡 (<CJK Ideograph>)
10671	0x881F	蠟 (<CJK Ideograph>)
10672	0x896A	襪 (<CJK Ideograph>)
10673	0x896C	襬 (<CJK Ideograph>)
10674	0x89BD	覽 (<CJK Ideograph>)
10675	0x8B74	譴 (<CJK Ideograph>)
"#

/-- encoding_tables/whatwg/index-big5.txt:9534-9690 -/
noncomputable def index68 : List Text := lines! r#"10676	0x8B77	護 (<CJK Ideograph>)
10677	0x8B7D	譽 (<CJK Ideograph>)
10678	0x8D13	贓 (<CJK Ideograph>)
10679	0x8E8A	躊 (<CJK Ideograph>)
10680	0x8E8D	躍 (<CJK Ideograph>)
10681	0x8E8B	躋 (<CJK Ideograph>)
10682	0x8F5F	轟 (<CJK Ideograph>)
10683	0x8FAF	辯 (<CJK Ideograph>)
10684	0x91BA	醺 (<CJK Ideograph>)
10685	0x942E	鐮 (<CJK Ideograph>)
10686	0x9433	鐳 (<CJK Ideograph>)
10687	0x9435	鐵 (<CJK Ideograph>)
10688	0x943A	鐺 (<CJK Ideograph>)
10689	0x9438	鐸 (<CJK Ideograph>)
10690	0x9432	鐲 (<CJK Ideograph>)
10691	0x942B	鐫 (<CJK Ideograph>)
10692	0x95E2	闢 (<CJK Ideograph>)
10693	0x9738	霸 (<CJK Ideograph>)
10694	0x9739	霹 (<CJK Ideograph>)
10695	0x9732	露 (<CJK Ideograph>)
10696	0x97FF	響 (<CJK Ideograph>)
10697	0x9867	顧 (<CJK Ideograph>)
10698	0x9865	顥 (<CJK Ideograph>)
10699	0x9957	饗 (<CJK Ideograph>)
10700	0x9A45	驅 (<CJK Ideograph>)
10701	0x9A43	驃 (<CJK Ideograph>)
10702	0x9A40	驀 (<CJK Ideograph>)
10703	0x9A3E	騾 (<CJK Ideograph>)
10704	0x9ACF	髏 (<CJK Ideograph>)
10705	0x9B54	魔 (<CJK Ideograph>)
10706	0x9B51	魑 (<CJK Ideograph>)
10707	0x9C2D	鰭 (<CJK Ideograph>)
10708	0x9C25	鰥 (<CJK Ideograph>)
10709	0x9DAF	鶯 (<CJK Ideograph>)
10710	0x9DB4	鶴 (<CJK Ideograph>)
10711	0x9DC2	鷂 (<CJK Ideograph>)
10712	0x9DB8	鶸 (<CJK Ideograph>)
10713	0x9E9D	麝 (<CJK Ideograph>)
10714	0x9EEF	黯 (<CJK Ideograph>)
10715	0x9F19	鼙 (<CJK Ideograph>)
10716	0x9F5C	齜 (<CJK Ideograph>)
10717	0x9F66	齦 (<CJK Ideograph>)
10718	0x9F67	齧 (<CJK Ideograph>)
10719	0x513C	儼 (<CJK Ideograph>)
10720	0x513B	儻 (<CJK Ideograph>)
10721	0x56C8	囈 (<CJK Ideograph>)
10722	0x56CA	囊 (<CJK Ideograph>)
10723	0x56C9	囉 (<CJK Ideograph>)
10724	0x5B7F	孿 (<CJK Ideograph>)
10725	0x5DD4	巔 (<CJK Ideograph>)
10726	0x5DD2	巒 (<CJK Ideograph>)
10727	0x5F4E	彎 (<CJK Ideograph>)
10728	0x61FF	懿 (<CJK Ideograph>)
10729	0x6524	攤 (<CJK Ideograph>)
10730	0x6B0A	權 (<CJK Ideograph>)
10731	0x6B61	歡 (<CJK Ideograph>)
10732	0x7051	灑 (<CJK Ideograph>)
10733	0x7058	灘 (<CJK Ideograph>)
10734	0x7380	玀 (<CJK Ideograph>)
10735	0x74E4	瓤 (<CJK Ideograph>)
10736	0x758A	疊 (<CJK Ideograph>)
10737	0x766E	癮 (<CJK Ideograph>)
10738	0x766C	癬 (<CJK Ideograph>)
10739	0x79B3	禳 (<CJK Ideograph>)
10740	0x7C60	籠 (<CJK Ideograph>)
10741	0x7C5F	籟 (<CJK Ideograph>)
10742	0x807E	聾 (<CJK Ideograph>)
10743	0x807D	聽 (<CJK Ideograph>)
10744	0x81DF	臟 (<CJK Ideograph>)
10745	0x8972	襲 (<CJK Ideograph>)
10746	0x896F	襯 (<CJK Ideograph>)
10747	0x89FC	觼 (<CJK Ideograph>)
10748	0x8B80	讀 (<CJK Ideograph>)
10749	0x8D16	贖 (<CJK Ideograph>)
10750	0x8D17	贗 (<CJK Ideograph>)
10751	0x8E91	躑 (<CJK Ideograph>)
10752	0x8E93	躓 (<CJK Ideograph>)
10753	0x8F61	轡 (<CJK Ideograph>)
10754	0x9148	酈 (<CJK Ideograph>)
10755	0x9444	鑄 (<CJK Ideograph>)
10756	0x9451	鑑 (<CJK Ideograph>)
10757	0x9452	鑒 (<CJK Ideograph>)
10758	0x973D	霽 (<CJK Ideograph>)
10759	0x973E	霾 (<CJK Ideograph>)
10760	0x97C3	韃 (<CJK Ideograph>)
10761	0x97C1	韁 (<CJK Ideograph>)
10762	0x986B	顫 (<CJK Ideograph>)
10763	0x9955	饕 (<CJK Ideograph>)
10764	0x9A55	驕 (<CJK Ideograph>)
10765	0x9A4D	驍 (<CJK Ideograph>)
10766	0x9AD2	髒 (<CJK Ideograph>)
10767	0x9B1A	鬚 (<CJK Ideograph>)
10768	0x9C49	鱉 (<CJK Ideograph>)
10769	0x9C31	鰱 (<CJK Ideograph>)
10770	0x9C3E	鰾 (<CJK Ideograph>)
10771	0x9C3B	鰻 (<CJK Ideograph>)
10772	0x9DD3	鷓 (<CJK Ideograph>)
10773	0x9DD7	鷗 (<CJK Ideograph>)
10774	0x9F34	鼴 (<CJK Ideograph>)
10775	0x9F6C	齬 (<CJK Ideograph>)
10776	0x9F6A	齪 (<CJK Ideograph>)
10777	0x9F94	龔 (<CJK Ideograph>)
10778	0x56CC	囌 (<CJK Ideograph>)
10779	0x5DD6	巖 (<CJK Ideograph>)
10780	0x6200	戀 (<CJK Ideograph>)
10781	0x6523	攣 (<CJK Ideograph>)
10782	0x652B	攫 (<CJK Ideograph>)
10783	0x652A	攪 (<CJK Ideograph>)
10784	0x66EC	曬 (<CJK Ideograph>)
10785	0x6B10	欐 (<CJK Ideograph>)
10786	0x74DA	瓚 (<CJK Ideograph>)
10787	0x7ACA	竊 (<CJK Ideograph>)
10788	0x7C64	籤 (<CJK Ideograph>)
10789	0x7C63	籣 (<CJK Ideograph>)
10790	0x7C65	籥 (<CJK Ideograph>)
10791	0x7E93	纓 (<CJK Ideograph>)
10792	0x7E96	纖 (<CJK Ideograph>)
10793	0x7E94	纔 (<CJK Ideograph>)
10794	0x81E2	臢 (<CJK Ideograph>)
10795	0x8638	蘸 (<CJK Ideograph>)
10796	0x863F	蘿 (<CJK Ideograph>)
10797	0x8831	蠱 (<CJK Ideograph>)
10798	0x8B8A	變 (<CJK Ideograph>)
10799	0x9090	邐 (<CJK Ideograph>)
10800	0x908F	邏 (<CJK Ideograph>)
10801	0x9463	鑣 (<CJK Ideograph>)
10802	0x9460	鑠 (<CJK Ideograph>)
10803	0x9464	鑤 (<CJK Ideograph>)
10804	0x9768	靨 (<CJK Ideograph>)
10805	0x986F	顯 (<CJK Ideograph>)
10806	0x995C	饜 (<CJK Ideograph>)
10807	0x9A5A	驚 (<CJK Ideograph>)
10808	0x9A5B	驛 (<CJK Ideograph>)
10809	0x9A57	驗 (<CJK Ideograph>)
10810	0x9AD3	髓 (<CJK Ideograph>)
10811	0x9AD4	體 (<CJK Ideograph>)
10812	0x9AD1	髑 (<CJK Ideograph>)
10813	0x9C54	鱔 (<CJK Ideograph>)
10814	0x9C57	鱗 (<CJK Ideograph>)
10815	0x9C56	鱖 (<CJK Ideograph>)
10816	0x9DE5	鷥 (<CJK Ideograph>)
10817	0x9E9F	麟 (<CJK Ideograph>)
10818	0x9EF4	黴 (<CJK Ideograph>)
10819	0x56D1	囑 (<CJK Ideograph>)
10820	0x58E9	壩 (<CJK Ideograph>)
10821	0x652C	攬 (<CJK Ideograph>)
10822	0x705E	灞 (<CJK Ideograph>)
10823	0x7671	癱 (<CJK Ideograph>)
10824	0x7672	癲 (<CJK Ideograph>)
10825	0x77D7	矗 (<CJK Ideograph>)
10826	0x7F50	罐 (<CJK Ideograph>)
10827	0x7F88	羈 (<CJK Ideograph>)
10828	0x8836	蠶 (<CJK Ideograph>)
10829	0x8839	蠹 (<CJK Ideograph>)
10830	0x8862	衢 (<CJK Ideograph>)
10831	0x8B93	讓 (<CJK Ideograph>)
10832	0x8B92	讒 (<CJK Ideograph>)
"#

/-- encoding_tables/whatwg/index-big5.txt:9691-9847 -/
noncomputable def index69 : List Text := lines! r#"10833	0x8B96	讖 (<CJK Ideograph>)
10834	0x8277	艷 (<CJK Ideograph>)
10835	0x8D1B	贛 (<CJK Ideograph>)
10836	0x91C0	釀 (<CJK Ideograph>)
10837	0x946A	鑪 (<CJK Ideograph>)
10838	0x9742	靂 (<CJK Ideograph>)
10839	0x9748	靈 (<CJK Ideograph>)
10840	0x9744	靄 (<CJK Ideograph>)
10841	0x97C6	韆 (<CJK Ideograph>)
10842	0x9870	顰 (<CJK Ideograph>)
10843	0x9A5F	驟 (<CJK Ideograph>)
10844	0x9B22	鬢 (<CJK Ideograph>)
10845	0x9B58	魘 (<CJK Ideograph>)
10846	0x9C5F	鱟 (<CJK Ideograph>)
10847	0x9DF9	鷹 (<CJK Ideograph>)
10848	0x9DFA	鷺 (<CJK Ideograph>)
10849	0x9E7C	鹼 (<CJK Ideograph>)
10850	0x9E7D	鹽 (<CJK Ideograph>)
10851	0x9F07	鼇 (<CJK Ideograph>)
10852	0x9F77	齷 (<CJK Ideograph>)
10853	0x9F72	齲 (<CJK Ideograph>)
10854	0x5EF3	廳 (<CJK Ideograph>)
10855	0x6B16	欖 (<CJK Ideograph>)
10856	0x7063	灣 (<CJK Ideograph>)
10857	0x7C6C	籬 (<CJK Ideograph>)
10858	0x7C6E	籮 (<CJK Ideograph>)
10859	0x883B	蠻 (<CJK Ideograph>)
10860	0x89C0	觀 (<CJK Ideograph>)
10861	0x8EA1	躡 (<CJK Ideograph>)
10862	0x91C1	釁 (<CJK Ideograph>)
10863	0x9472	鑲 (<CJK Ideograph>)
10864	0x9470	鑰 (<CJK Ideograph>)
10865	0x9871	顱 (<CJK Ideograph>)
10866	0x995E	饞 (<CJK Ideograph>)
10867	0x9AD6	髖 (<CJK Ideograph>)
10868	0x9B23	鬣 (<CJK Ideograph>)
10869	0x9ECC	黌 (<CJK Ideograph>)
10870	0x7064	灤 (<CJK Ideograph>)
10871	0x77DA	矚 (<CJK Ideograph>)
10872	0x8B9A	讚 (<CJK Ideograph>)
10873	0x9477	鑷 (<CJK Ideograph>)
10874	0x97C9	韉 (<CJK Ideograph>)
10875	0x9A62	驢 (<CJK Ideograph>)
10876	0x9A65	驥 (<CJK Ideograph>)
10877	0x7E9C	纜 (<CJK Ideograph>)
10878	0x8B9C	讜 (<CJK Ideograph>)
10879	0x8EAA	躪 (<CJK Ideograph>)
10880	0x91C5	釅 (<CJK Ideograph>)
10881	0x947D	鑽 (<CJK Ideograph>)
10882	0x947E	鑾 (<CJK Ideograph>)
10883	0x947C	鑼 (<CJK Ideograph>)
10884	0x9C77	鱷 (<CJK Ideograph>)
10885	0x9C78	鱸 (<CJK Ideograph>)
10886	0x9EF7	黷 (<CJK Ideograph>)
10887	0x8C54	豔 (<CJK Ideograph>)
10888	0x947F	鑿 (<CJK Ideograph>)
10889	0x9E1A	鸚 (<CJK Ideograph>)
10890	0x7228	爨 (<CJK Ideograph>)
10891	0x9A6A	驪 (<CJK Ideograph>)
10892	0x9B31	鬱 (<CJK Ideograph>)
10893	0x9E1B	鸛 (<CJK Ideograph>)
10894	0x9E1E	鸞 (<CJK Ideograph>)
10895	0x7C72	籲 (<CJK Ideograph>)
10896	0x2460	① (CIRCLED DIGIT ONE)
10897	0x2461	② (CIRCLED DIGIT TWO)
10898	0x2462	③ (CIRCLED DIGIT THREE)
10899	0x2463	④ (CIRCLED DIGIT FOUR)
10900	0x2464	⑤ (CIRCLED DIGIT FIVE)
10901	0x2465	⑥ (CIRCLED DIGIT SIX)
10902	0x2466	⑦ (CIRCLED DIGIT SEVEN)
10903	0x2467	⑧ (CIRCLED DIGIT EIGHT)
10904	0x2468	⑨ (CIRCLED DIGIT NINE)
10905	0x2469	⑩ (CIRCLED NUMBER TEN)
10906	0x2474	⑴ (PARENTHESIZED DIGIT ONE)
10907	0x2475	⑵ (PARENTHESIZED DIGIT TWO)
10908	0x2476	⑶ (PARENTHESIZED DIGIT THREE)
10909	0x2477	⑷ (PARENTHESIZED DIGIT FOUR)
10910	0x2478	⑸ (PARENTHESIZED DIGIT FIVE)
10911	0x2479	⑹ (PARENTHESIZED DIGIT SIX)
10912	0x247A	⑺ (PARENTHESIZED DIGIT SEVEN)
10913	0x247B	⑻ (PARENTHESIZED DIGIT EIGHT)
10914	0x247C	⑼ (PARENTHESIZED DIGIT NINE)
10915	0x247D	⑽ (PARENTHESIZED NUMBER TEN)
10916	0x2170	ⅰ (SMALL ROMAN NUMERAL ONE)
10917	0x2171	ⅱ (SMALL ROMAN NUMERAL TWO)
10918	0x2172	ⅲ (SMALL ROMAN NUMERAL THREE)
10919	0x2173	ⅳ (SMALL ROMAN NUMERAL FOUR)
10920	0x2174	ⅴ (SMALL ROMAN NUMERAL FIVE)
10921	0x2175	ⅵ (SMALL ROMAN NUMERAL SIX)
10922	0x2176	ⅶ (SMALL ROMAN NUMERAL SEVEN)
10923	0x2177	ⅷ (SMALL ROMAN NUMERAL EIGHT)
10924	0x2178	ⅸ (SMALL ROMAN NUMERAL NINE)
10925	0x2179	ⅹ (SMALL ROMAN NUMERAL TEN)
10926	0x4E36	丶 (<CJK Ideograph>)
10927	0x4E3F	丿 (<CJK Ideograph>)
10928	0x4E85	亅 (<CJK Ideograph>)
10929	0x4EA0	亠 (<CJK Ideograph>)
10930	0x5182	冂 (<CJK Ideograph>)
10931	0x5196	冖 (<CJK Ideograph>)
10932	0x51AB	冫 (<CJK Ideograph>)
10933	0x52F9	勹 (<CJK Ideograph>)
10934	0x5338	匸 (<CJK Ideograph>)
10935	0x5369	卩 (<CJK Ideograph>)
10936	0x53B6	厶 (<CJK Ideograph>)
10937	0x590A	夊 (<CJK Ideograph>)
10938	0x5B80	宀 (<CJK Ideograph>)
10939	0x5DDB	巛 (<CJK Ideograph>)
10940	0x2F33	⼳ (KANGXI RADICAL SHORT THREAD)
10941	0x5E7F	广 (<CJK Ideograph>)
10942	0x5EF4	廴 (<CJK Ideograph>)
10943	0x5F50	彐 (<CJK Ideograph>)
10944	0x5F61	彡 (<CJK Ideograph>)
10945	0x6534	攴 (<CJK Ideograph>)
10946	0x65E0	无 (<CJK Ideograph>)
10947	0x7592	疒 (<CJK Ideograph>)
10948	0x7676	癶 (<CJK Ideograph>)
10949	0x8FB5	辵 (<CJK Ideograph>)
10950	0x96B6	隶 (<CJK Ideograph>)
10951	0x00A8	¨ (DIAERESIS)
10952	0x02C6	ˆ (MODIFIER LETTER CIRCUMFLEX ACCENT)
10953	0x30FD	ヽ (KATAKANA ITERATION MARK)
10954	0x30FE	ヾ (KATAKANA VOICED ITERATION MARK)
10955	0x309D	ゝ (HIRAGANA ITERATION MARK)
10956	0x309E	ゞ (HIRAGANA VOICED ITERATION MARK)
10957	0x3003	〃 (DITTO MARK)
10958	0x4EDD	仝 (<CJK Ideograph>)
10959	0x3005	々 (IDEOGRAPHIC ITERATION MARK)
10960	0x3006	〆 (IDEOGRAPHIC CLOSING MARK)
10961	0x3007	〇 (IDEOGRAPHIC NUMBER ZERO)
10962	0x30FC	ー (KATAKANA-HIRAGANA PROLONGED SOUND MARK)
10963	0xFF3B	［ (FULLWIDTH LEFT SQUARE BRACKET)
10964	0xFF3D	］ (FULLWIDTH RIGHT SQUARE BRACKET)
10965	0x273D	✽ (HEAVY TEARDROP-SPOKED ASTERISK)
10966	0x3041	ぁ (HIRAGANA LETTER SMALL A)
10967	0x3042	あ (HIRAGANA LETTER A)
10968	0x3043	ぃ (HIRAGANA LETTER SMALL I)
10969	0x3044	い (HIRAGANA LETTER I)
10970	0x3045	ぅ (HIRAGANA LETTER SMALL U)
10971	0x3046	う (HIRAGANA LETTER U)
10972	0x3047	ぇ (HIRAGANA LETTER SMALL E)
10973	0x3048	え (HIRAGANA LETTER E)
10974	0x3049	ぉ (HIRAGANA LETTER SMALL O)
10975	0x304A	お (HIRAGANA LETTER O)
10976	0x304B	か (HIRAGANA LETTER KA)
10977	0x304C	が (HIRAGANA LETTER GA)
10978	0x304D	き (HIRAGANA LETTER KI)
10979	0x304E	ぎ (HIRAGANA LETTER GI)
10980	0x304F	く (HIRAGANA LETTER KU)
10981	0x3050	ぐ (HIRAGANA LETTER GU)
10982	0x3051	け (HIRAGANA LETTER KE)
10983	0x3052	げ (HIRAGANA LETTER GE)
10984	0x3053	こ (HIRAGANA LETTER KO)
10985	0x3054	ご (HIRAGANA LETTER GO)
10986	0x3055	さ (HIRAGANA LETTER SA)
10987	0x3056	ざ (HIRAGANA LETTER ZA)
10988	0x3057	し (HIRAGANA LETTER SI)
10989	0x3058	じ (HIRAGANA LETTER ZI)
"#

/-- encoding_tables/whatwg/index-big5.txt:9848-10004 -/
noncomputable def index70 : List Text := lines! r#"10990	0x3059	す (HIRAGANA LETTER SU)
10991	0x305A	ず (HIRAGANA LETTER ZU)
10992	0x305B	せ (HIRAGANA LETTER SE)
10993	0x305C	ぜ (HIRAGANA LETTER ZE)
10994	0x305D	そ (HIRAGANA LETTER SO)
10995	0x305E	ぞ (HIRAGANA LETTER ZO)
10996	0x305F	た (HIRAGANA LETTER TA)
10997	0x3060	だ (HIRAGANA LETTER DA)
10998	0x3061	ち (HIRAGANA LETTER TI)
10999	0x3062	ぢ (HIRAGANA LETTER DI)
11000	0x3063	っ (HIRAGANA LETTER SMALL TU)
11001	0x3064	つ (HIRAGANA LETTER TU)
11002	0x3065	づ (HIRAGANA LETTER DU)
11003	0x3066	て (HIRAGANA LETTER TE)
11004	0x3067	で (HIRAGANA LETTER DE)
11005	0x3068	と (HIRAGANA LETTER TO)
11006	0x3069	ど (HIRAGANA LETTER DO)
11007	0x306A	な (HIRAGANA LETTER NA)
11008	0x306B	に (HIRAGANA LETTER NI)
11009	0x306C	ぬ (HIRAGANA LETTER NU)
11010	0x306D	ね (HIRAGANA LETTER NE)
11011	0x306E	の (HIRAGANA LETTER NO)
11012	0x306F	は (HIRAGANA LETTER HA)
11013	0x3070	ば (HIRAGANA LETTER BA)
11014	0x3071	ぱ (HIRAGANA LETTER PA)
11015	0x3072	ひ (HIRAGANA LETTER HI)
11016	0x3073	び (HIRAGANA LETTER BI)
11017	0x3074	ぴ (HIRAGANA LETTER PI)
11018	0x3075	ふ (HIRAGANA LETTER HU)
11019	0x3076	ぶ (HIRAGANA LETTER BU)
11020	0x3077	ぷ (HIRAGANA LETTER PU)
11021	0x3078	へ (HIRAGANA LETTER HE)
11022	0x3079	べ (HIRAGANA LETTER BE)
11023	0x307A	ぺ (HIRAGANA LETTER PE)
11024	0x307B	ほ (HIRAGANA LETTER HO)
11025	0x307C	ぼ (HIRAGANA LETTER BO)
11026	0x307D	ぽ (HIRAGANA LETTER PO)
11027	0x307E	ま (HIRAGANA LETTER MA)
11028	0x307F	み (HIRAGANA LETTER MI)
11029	0x3080	む (HIRAGANA LETTER MU)
11030	0x3081	め (HIRAGANA LETTER ME)
11031	0x3082	も (HIRAGANA LETTER MO)
11032	0x3083	ゃ (HIRAGANA LETTER SMALL YA)
11033	0x3084	や (HIRAGANA LETTER YA)
11034	0x3085	ゅ (HIRAGANA LETTER SMALL YU)
11035	0x3086	ゆ (HIRAGANA LETTER YU)
11036	0x3087	ょ (HIRAGANA LETTER SMALL YO)
11037	0x3088	よ (HIRAGANA LETTER YO)
11038	0x3089	ら (HIRAGANA LETTER RA)
11039	0x308A	り (HIRAGANA LETTER RI)
11040	0x308B	る (HIRAGANA LETTER RU)
11041	0x308C	れ (HIRAGANA LETTER RE)
11042	0x308D	ろ (HIRAGANA LETTER RO)
11043	0x308E	ゎ (HIRAGANA LETTER SMALL WA)
11044	0x308F	わ (HIRAGANA LETTER WA)
11045	0x3090	ゐ (HIRAGANA LETTER WI)
11046	0x3091	ゑ (HIRAGANA LETTER WE)
11047	0x3092	を (HIRAGANA LETTER WO)
11048	0x3093	ん (HIRAGANA LETTER N)
11049	0x30A1	ァ (KATAKANA LETTER SMALL A)
11050	0x30A2	ア (KATAKANA LETTER A)
11051	0x30A3	ィ (KATAKANA LETTER SMALL I)
11052	0x30A4	イ (KATAKANA LETTER I)
11053	0x30A5	ゥ (KATAKANA LETTER SMALL U)
11054	0x30A6	ウ (KATAKANA LETTER U)
11055	0x30A7	ェ (KATAKANA LETTER SMALL E)
11056	0x30A8	エ (KATAKANA LETTER E)
11057	0x30A9	ォ (KATAKANA LETTER SMALL O)
11058	0x30AA	オ (KATAKANA LETTER O)
11059	0x30AB	カ (KATAKANA LETTER KA)
11060	0x30AC	ガ (KATAKANA LETTER GA)
11061	0x30AD	キ (KATAKANA LETTER KI)
11062	0x30AE	ギ (KATAKANA LETTER GI)
11063	0x30AF	ク (KATAKANA LETTER KU)
11064	0x30B0	グ (KATAKANA LETTER GU)
11065	0x30B1	ケ (KATAKANA LETTER KE)
11066	0x30B2	ゲ (KATAKANA LETTER GE)
11067	0x30B3	コ (KATAKANA LETTER KO)
11068	0x30B4	ゴ (KATAKANA LETTER GO)
11069	0x30B5	サ (KATAKANA LETTER SA)
11070	0x30B6	ザ (KATAKANA LETTER ZA)
11071	0x30B7	シ (KATAKANA LETTER SI)
11072	0x30B8	ジ (KATAKANA LETTER ZI)
11073	0x30B9	ス (KATAKANA LETTER SU)
11074	0x30BA	ズ (KATAKANA LETTER ZU)
11075	0x30BB	セ (KATAKANA LETTER SE)
11076	0x30BC	ゼ (KATAKANA LETTER ZE)
11077	0x30BD	ソ (KATAKANA LETTER SO)
11078	0x30BE	ゾ (KATAKANA LETTER ZO)
11079	0x30BF	タ (KATAKANA LETTER TA)
11080	0x30C0	ダ (KATAKANA LETTER DA)
11081	0x30C1	チ (KATAKANA LETTER TI)
11082	0x30C2	ヂ (KATAKANA LETTER DI)
11083	0x30C3	ッ (KATAKANA LETTER SMALL TU)
11084	0x30C4	ツ (KATAKANA LETTER TU)
11085	0x30C5	ヅ (KATAKANA LETTER DU)
11086	0x30C6	テ (KATAKANA LETTER TE)
11087	0x30C7	デ (KATAKANA LETTER DE)
11088	0x30C8	ト (KATAKANA LETTER TO)
11089	0x30C9	ド (KATAKANA LETTER DO)
11090	0x30CA	ナ (KATAKANA LETTER NA)
11091	0x30CB	ニ (KATAKANA LETTER NI)
11092	0x30CC	ヌ (KATAKANA LETTER NU)
11093	0x30CD	ネ (KATAKANA LETTER NE)
11094	0x30CE	ノ (KATAKANA LETTER NO)
11095	0x30CF	ハ (KATAKANA LETTER HA)
11096	0x30D0	バ (KATAKANA LETTER BA)
11097	0x30D1	パ (KATAKANA LETTER PA)
11098	0x30D2	ヒ (KATAKANA LETTER HI)
11099	0x30D3	ビ (KATAKANA LETTER BI)
11100	0x30D4	ピ (KATAKANA LETTER PI)
11101	0x30D5	フ (KATAKANA LETTER HU)
11102	0x30D6	ブ (KATAKANA LETTER BU)
11103	0x30D7	プ (KATAKANA LETTER PU)
11104	0x30D8	ヘ (KATAKANA LETTER HE)
11105	0x30D9	ベ (KATAKANA LETTER BE)
11106	0x30DA	ペ (KATAKANA LETTER PE)
11107	0x30DB	ホ (KATAKANA LETTER HO)
11108	0x30DC	ボ (KATAKANA LETTER BO)
11109	0x30DD	ポ (KATAKANA LETTER PO)
11110	0x30DE	マ (KATAKANA LETTER MA)
11111	0x30DF	ミ (KATAKANA LETTER MI)
11112	0x30E0	ム (KATAKANA LETTER MU)
11113	0x30E1	メ (KATAKANA LETTER ME)
11114	0x30E2	モ (KATAKANA LETTER MO)
11115	0x30E3	ャ (KATAKANA LETTER SMALL YA)
11116	0x30E4	ヤ (KATAKANA LETTER YA)
11117	0x30E5	ュ (KATAKANA LETTER SMALL YU)
11118	0x30E6	ユ (KATAKANA LETTER YU)
11119	0x30E7	ョ (KATAKANA LETTER SMALL YO)
11120	0x30E8	ヨ (KATAKANA LETTER YO)
11121	0x30E9	ラ (KATAKANA LETTER RA)
11122	0x30EA	リ (KATAKANA LETTER RI)
11123	0x30EB	ル (KATAKANA LETTER RU)
11124	0x30EC	レ (KATAKANA LETTER RE)
11125	0x30ED	ロ (KATAKANA LETTER RO)
11126	0x30EE	ヮ (KATAKANA LETTER SMALL WA)
11127	0x30EF	ワ (KATAKANA LETTER WA)
11128	0x30F0	ヰ (KATAKANA LETTER WI)
11129	0x30F1	ヱ (KATAKANA LETTER WE)
11130	0x30F2	ヲ (KATAKANA LETTER WO)
11131	0x30F3	ン (KATAKANA LETTER N)
11132	0x30F4	ヴ (KATAKANA LETTER VU)
11133	0x30F5	ヵ (KATAKANA LETTER SMALL KA)
11134	0x30F6	ヶ (KATAKANA LETTER SMALL KE)
11135	0x0410	А (CYRILLIC CAPITAL LETTER A)
11136	0x0411	Б (CYRILLIC CAPITAL LETTER BE)
11137	0x0412	В (CYRILLIC CAPITAL LETTER VE)
11138	0x0413	Г (CYRILLIC CAPITAL LETTER GHE)
11139	0x0414	Д (CYRILLIC CAPITAL LETTER DE)
11140	0x0415	Е (CYRILLIC CAPITAL LETTER IE)
11141	0x0401	Ё (CYRILLIC CAPITAL LETTER IO)
11142	0x0416	Ж (CYRILLIC CAPITAL LETTER ZHE)
11143	0x0417	З (CYRILLIC CAPITAL LETTER ZE)
11144	0x0418	И (CYRILLIC CAPITAL LETTER I)
11145	0x0419	Й (CYRILLIC CAPITAL LETTER SHORT I)
11146	0x041A	К (CYRILLIC CAPITAL LETTER KA)
"#

/-- encoding_tables/whatwg/index-big5.txt:10005-10118 -/
noncomputable def index71 : List Text := lines! r#"11147	0x041B	Л (CYRILLIC CAPITAL LETTER EL)
11148	0x041C	М (CYRILLIC CAPITAL LETTER EM)
11149	0x041D	Н (CYRILLIC CAPITAL LETTER EN)
11150	0x041E	О (CYRILLIC CAPITAL LETTER O)
11151	0x041F	П (CYRILLIC CAPITAL LETTER PE)
11152	0x0420	Р (CYRILLIC CAPITAL LETTER ER)
11153	0x0421	С (CYRILLIC CAPITAL LETTER ES)
11154	0x0422	Т (CYRILLIC CAPITAL LETTER TE)
11155	0x0423	У (CYRILLIC CAPITAL LETTER U)
11156	0x0424	Ф (CYRILLIC CAPITAL LETTER EF)
11157	0x0425	Х (CYRILLIC CAPITAL LETTER HA)
11158	0x0426	Ц (CYRILLIC CAPITAL LETTER TSE)
11159	0x0427	Ч (CYRILLIC CAPITAL LETTER CHE)
11160	0x0428	Ш (CYRILLIC CAPITAL LETTER SHA)
11161	0x0429	Щ (CYRILLIC CAPITAL LETTER SHCHA)
11162	0x042A	Ъ (CYRILLIC CAPITAL LETTER HARD SIGN)
11163	0x042B	Ы (CYRILLIC CAPITAL LETTER YERU)
11164	0x042C	Ь (CYRILLIC CAPITAL LETTER SOFT SIGN)
11165	0x042D	Э (CYRILLIC CAPITAL LETTER E)
11166	0x042E	Ю (CYRILLIC CAPITAL LETTER YU)
11167	0x042F	Я (CYRILLIC CAPITAL LETTER YA)
11168	0x0430	а (CYRILLIC SMALL LETTER A)
11169	0x0431	б (CYRILLIC SMALL LETTER BE)
11170	0x0432	в (CYRILLIC SMALL LETTER VE)
11171	0x0433	г (CYRILLIC SMALL LETTER GHE)
11172	0x0434	д (CYRILLIC SMALL LETTER DE)
11173	0x0435	е (CYRILLIC SMALL LETTER IE)
11174	0x0451	ё (CYRILLIC SMALL LETTER IO)
11175	0x0436	ж (CYRILLIC SMALL LETTER ZHE)
11176	0x0437	з (CYRILLIC SMALL LETTER ZE)
11177	0x0438	и (CYRILLIC SMALL LETTER I)
11178	0x0439	й (CYRILLIC SMALL LETTER SHORT I)
11179	0x043A	к (CYRILLIC SMALL LETTER KA)
11180	0x043B	л (CYRILLIC SMALL LETTER EL)
11181	0x043C	м (CYRILLIC SMALL LETTER EM)
11182	0x043D	н (CYRILLIC SMALL LETTER EN)
11183	0x043E	о (CYRILLIC SMALL LETTER O)
11184	0x043F	п (CYRILLIC SMALL LETTER PE)
11185	0x0440	р (CYRILLIC SMALL LETTER ER)
11186	0x0441	с (CYRILLIC SMALL LETTER ES)
11187	0x0442	т (CYRILLIC SMALL LETTER TE)
11188	0x0443	у (CYRILLIC SMALL LETTER U)
11189	0x0444	ф (CYRILLIC SMALL LETTER EF)
11190	0x0445	х (CYRILLIC SMALL LETTER HA)
11191	0x0446	ц (CYRILLIC SMALL LETTER TSE)
11192	0x0447	ч (CYRILLIC SMALL LETTER CHE)
11193	0x0448	ш (CYRILLIC SMALL LETTER SHA)
11194	0x0449	щ (CYRILLIC SMALL LETTER SHCHA)
11195	0x044A	ъ (CYRILLIC SMALL LETTER HARD SIGN)
11196	0x044B	ы (CYRILLIC SMALL LETTER YERU)
11197	0x044C	ь (CYRILLIC SMALL LETTER SOFT SIGN)
11198	0x044D	э (CYRILLIC SMALL LETTER E)
11199	0x044E	ю (CYRILLIC SMALL LETTER YU)
11200	0x044F	я (CYRILLIC SMALL LETTER YA)
11201	0x21E7	⇧ (UPWARDS WHITE ARROW)
11202	0x21B8	↸ (NORTH WEST ARROW TO LONG BAR)
11203	0x21B9	↹ (LEFTWARDS ARROW TO BAR OVER RIGHTWARDS ARROW TO BAR)
11204	0x31CF	㇏ (CJK STROKE N)
11205	0x200CC	𠃌 (<CJK Ideograph Extension B>)
11206	0x4E5A	乚 (<CJK Ideograph>)
11207	0x2008A	𠂊 (<CJK Ideograph Extension B>)
11208	0x5202	刂 (<CJK Ideograph>)
11209	0x4491	䒑 (<CJK Ideograph Extension A>)
11210	0x9FB0	龰 (<CJK Ideograph>)
11211	0x5188	冈 (<CJK Ideograph>)
11212	0x9FB1	龱 (<CJK Ideograph>)
11213	0x27607	𧘇 (<CJK Ideograph Extension B>)
11254	0xFFE2	￢ (FULLWIDTH NOT SIGN)
11255	0xFFE4	￤ (FULLWIDTH BROKEN BAR)
11256	0xFF07	＇ (FULLWIDTH APOSTROPHE)
11257	0xFF02	＂ (FULLWIDTH QUOTATION MARK)
11258	0x3231	㈱ (PARENTHESIZED IDEOGRAPH STOCK)
11259	0x2116	№ (NUMERO SIGN)
11260	0x2121	℡ (TELEPHONE SIGN)
11261	0x309B	゛ (KATAKANA-HIRAGANA VOICED SOUND MARK)
11262	0x309C	゜ (KATAKANA-HIRAGANA SEMI-VOICED SOUND MARK)
11263	0x2E80	⺀ (CJK RADICAL REPEAT)
11264	0x2E84	⺄ (CJK RADICAL SECOND THREE)
11265	0x2E86	⺆ (CJK RADICAL BOX)
11266	0x2E87	⺇ (CJK RADICAL TABLE)
11267	0x2E88	⺈ (CJK RADICAL KNIFE ONE)
11268	0x2E8A	⺊ (CJK RADICAL DIVINATION)
11269	0x2E8C	⺌ (CJK RADICAL SMALL ONE)
11270	0x2E8D	⺍ (CJK RADICAL SMALL TWO)
11271	0x2E95	⺕ (CJK RADICAL SNOUT TWO)
11272	0x2E9C	⺜ (CJK RADICAL SUN)
11273	0x2E9D	⺝ (CJK RADICAL MOON)
11274	0x2EA5	⺥ (CJK RADICAL PAW TWO)
11275	0x2EA7	⺧ (CJK RADICAL COW)
11276	0x2EAA	⺪ (CJK RADICAL BOLT OF CLOTH)
11277	0x2EAC	⺬ (CJK RADICAL SPIRIT ONE)
11278	0x2EAE	⺮ (CJK RADICAL BAMBOO)
11279	0x2EB6	⺶ (CJK RADICAL SHEEP)
11280	0x2EBC	⺼ (CJK RADICAL MEAT)
11281	0x2EBE	⺾ (CJK RADICAL GRASS ONE)
11282	0x2EC6	⻆ (CJK RADICAL SIMPLIFIED HORN)
11283	0x2ECA	⻊ (CJK RADICAL FOOT)
11284	0x2ECC	⻌ (CJK RADICAL SIMPLIFIED WALK)
11285	0x2ECD	⻍ (CJK RADICAL WALK ONE)
11286	0x2ECF	⻏ (CJK RADICAL CITY)
11287	0x2ED6	⻖ (CJK RADICAL MOUND TWO)
11288	0x2ED7	⻗ (CJK RADICAL RAIN)
11289	0x2EDE	⻞ (CJK RADICAL EAT TWO)
11290	0x2EE3	⻣ (CJK RADICAL BONE)
11294	0x0283	ʃ (LATIN SMALL LETTER ESH)
11295	0x0250	ɐ (LATIN SMALL LETTER TURNED A)
11296	0x025B	ɛ (LATIN SMALL LETTER OPEN E)
11297	0x0254	ɔ (LATIN SMALL LETTER OPEN O)
11298	0x0275	ɵ (LATIN SMALL LETTER BARRED O)
11299	0x0153	œ (LATIN SMALL LIGATURE OE)
11300	0x00F8	ø (LATIN SMALL LETTER O WITH STROKE)
11301	0x014B	ŋ (LATIN SMALL LETTER ENG)
11302	0x028A	ʊ (LATIN SMALL LETTER UPSILON)
11303	0x026A	ɪ (LATIN LETTER SMALL CAPITAL I)
"#

/-- encoding_tables/whatwg/index-big5.txt:10119-10275 -/
noncomputable def index72 : List Text := lines! r#"11304	0x4E42	乂 (<CJK Ideograph>)
11305	0x4E5C	乜 (<CJK Ideograph>)
11306	0x51F5	凵 (<CJK Ideograph>)
11307	0x531A	匚 (<CJK Ideograph>)
11308	0x5382	厂 (<CJK Ideograph>)
11309	0x4E07	万 (<CJK Ideograph>)
11310	0x4E0C	丌 (<CJK Ideograph>)
11311	0x4E47	乇 (<CJK Ideograph>)
11312	0x4E8D	亍 (<CJK Ideograph>)
11313	0x56D7	囗 (<CJK Ideograph>)
11314	0xFA0C	兀 (CJK COMPATIBILITY IDEOGRAPH-FA0C)
11315	0x5C6E	屮 (<CJK Ideograph>)
11316	0x5F73	彳 (<CJK Ideograph>)
11317	0x4E0F	丏 (<CJK Ideograph>)
11318	0x5187	冇 (<CJK Ideograph>)
11319	0x4E0E	与 (<CJK Ideograph>)
11320	0x4E2E	丮 (<CJK Ideograph>)
11321	0x4E93	亓 (<CJK Ideograph>)
11322	0x4EC2	仂 (<CJK Ideograph>)
11323	0x4EC9	仉 (<CJK Ideograph>)
11324	0x4EC8	仈 (<CJK Ideograph>)
11325	0x5198	冘 (<CJK Ideograph>)
11326	0x52FC	勼 (<CJK Ideograph>)
11327	0x536C	卬 (<CJK Ideograph>)
11328	0x53B9	厹 (<CJK Ideograph>)
11329	0x5720	圠 (<CJK Ideograph>)
11330	0x5903	夃 (<CJK Ideograph>)
11331	0x592C	夬 (<CJK Ideograph>)
11332	0x5C10	尐 (<CJK Ideograph>)
11333	0x5DFF	巿 (<CJK Ideograph>)
11334	0x65E1	旡 (<CJK Ideograph>)
11335	0x6BB3	殳 (<CJK Ideograph>)
11336	0x6BCC	毌 (<CJK Ideograph>)
11337	0x6C14	气 (<CJK Ideograph>)
11338	0x723F	爿 (<CJK Ideograph>)
11339	0x4E31	丱 (<CJK Ideograph>)
11340	0x4E3C	丼 (<CJK Ideograph>)
11341	0x4EE8	仨 (<CJK Ideograph>)
11342	0x4EDC	仜 (<CJK Ideograph>)
11343	0x4EE9	仩 (<CJK Ideograph>)
11344	0x4EE1	仡 (<CJK Ideograph>)
11345	0x4EDD	仝 (<CJK Ideograph>)
11346	0x4EDA	仚 (<CJK Ideograph>)
11347	0x520C	刌 (<CJK Ideograph>)
11348	0x531C	匜 (<CJK Ideograph>)
11349	0x534C	卌 (<CJK Ideograph>)
11350	0x5722	圢 (<CJK Ideograph>)
11351	0x5723	圣 (<CJK Ideograph>)
11352	0x5917	夗 (<CJK Ideograph>)
11353	0x592F	夯 (<CJK Ideograph>)
11354	0x5B81	宁 (<CJK Ideograph>)
11355	0x5B84	宄 (<CJK Ideograph>)
11356	0x5C12	尒 (<CJK Ideograph>)
11357	0x5C3B	尻 (<CJK Ideograph>)
11358	0x5C74	屴 (<CJK Ideograph>)
11359	0x5C73	屳 (<CJK Ideograph>)
11360	0x5E04	帄 (<CJK Ideograph>)
11361	0x5E80	庀 (<CJK Ideograph>)
11362	0x5E82	庂 (<CJK Ideograph>)
11363	0x5FC9	忉 (<CJK Ideograph>)
11364	0x6209	戉 (<CJK Ideograph>)
11365	0x6250	扐 (<CJK Ideograph>)
11366	0x6C15	氕 (<CJK Ideograph>)
11367	0x6C36	氶 (<CJK Ideograph>)
11368	0x6C43	汃 (<CJK Ideograph>)
11369	0x6C3F	氿 (<CJK Ideograph>)
11370	0x6C3B	氻 (<CJK Ideograph>)
11371	0x72AE	犮 (<CJK Ideograph>)
11372	0x72B0	犰 (<CJK Ideograph>)
11373	0x738A	玊 (<CJK Ideograph>)
11374	0x79B8	禸 (<CJK Ideograph>)
11375	0x808A	肊 (<CJK Ideograph>)
11376	0x961E	阞 (<CJK Ideograph>)
11377	0x4F0E	伎 (<CJK Ideograph>)
11378	0x4F18	优 (<CJK Ideograph>)
11379	0x4F2C	伬 (<CJK Ideograph>)
11380	0x4EF5	仵 (<CJK Ideograph>)
11381	0x4F14	伔 (<CJK Ideograph>)
11382	0x4EF1	仱 (<CJK Ideograph>)
11383	0x4F00	伀 (<CJK Ideograph>)
11384	0x4EF7	价 (<CJK Ideograph>)
11385	0x4F08	伈 (<CJK Ideograph>)
11386	0x4F1D	伝 (<CJK Ideograph>)
11387	0x4F02	伂 (<CJK Ideograph>)
11388	0x4F05	伅 (<CJK Ideograph>)
11389	0x4F22	伢 (<CJK Ideograph>)
11390	0x4F13	伓 (<CJK Ideograph>)
11391	0x4F04	伄 (<CJK Ideograph>)
11392	0x4EF4	仴 (<CJK Ideograph>)
11393	0x4F12	伒 (<CJK Ideograph>)
11394	0x51B1	冱 (<CJK Ideograph>)
11395	0x5213	刓 (<CJK Ideograph>)
11396	0x5209	刉 (<CJK Ideograph>)
11397	0x5210	刐 (<CJK Ideograph>)
11398	0x52A6	劦 (<CJK Ideograph>)
11399	0x5322	匢 (<CJK Ideograph>)
11400	0x531F	匟 (<CJK Ideograph>)
11401	0x534D	卍 (<CJK Ideograph>)
11402	0x538A	厊 (<CJK Ideograph>)
11403	0x5407	吇 (<CJK Ideograph>)
11404	0x56E1	囡 (<CJK Ideograph>)
11405	0x56DF	囟 (<CJK Ideograph>)
11406	0x572E	圮 (<CJK Ideograph>)
11407	0x572A	圪 (<CJK Ideograph>)
11408	0x5734	圴 (<CJK Ideograph>)
11409	0x593C	夼 (<CJK Ideograph>)
11410	0x5980	妀 (<CJK Ideograph>)
11411	0x597C	奼 (<CJK Ideograph>)
11412	0x5985	妅 (<CJK Ideograph>)
11413	0x597B	奻 (<CJK Ideograph>)
11414	0x597E	奾 (<CJK Ideograph>)
11415	0x5977	奷 (<CJK Ideograph>)
11416	0x597F	奿 (<CJK Ideograph>)
11417	0x5B56	孖 (<CJK Ideograph>)
11418	0x5C15	尕 (<CJK Ideograph>)
11419	0x5C25	尥 (<CJK Ideograph>)
11420	0x5C7C	屼 (<CJK Ideograph>)
11421	0x5C7A	屺 (<CJK Ideograph>)
11422	0x5C7B	屻 (<CJK Ideograph>)
11423	0x5C7E	屾 (<CJK Ideograph>)
11424	0x5DDF	巟 (<CJK Ideograph>)
11425	0x5E75	幵 (<CJK Ideograph>)
11426	0x5E84	庄 (<CJK Ideograph>)
11427	0x5F02	异 (<CJK Ideograph>)
11428	0x5F1A	弚 (<CJK Ideograph>)
11429	0x5F74	彴 (<CJK Ideograph>)
11430	0x5FD5	忕 (<CJK Ideograph>)
11431	0x5FD4	忔 (<CJK Ideograph>)
11432	0x5FCF	忏 (<CJK Ideograph>)
11433	0x625C	扜 (<CJK Ideograph>)
11434	0x625E	扞 (<CJK Ideograph>)
11435	0x6264	扤 (<CJK Ideograph>)
11436	0x6261	扡 (<CJK Ideograph>)
11437	0x6266	扦 (<CJK Ideograph>)
11438	0x6262	扢 (<CJK Ideograph>)
11439	0x6259	扙 (<CJK Ideograph>)
11440	0x6260	扠 (<CJK Ideograph>)
11441	0x625A	扚 (<CJK Ideograph>)
11442	0x6265	扥 (<CJK Ideograph>)
11443	0x65EF	旯 (<CJK Ideograph>)
11444	0x65EE	旮 (<CJK Ideograph>)
11445	0x673E	朾 (<CJK Ideograph>)
11446	0x6739	朹 (<CJK Ideograph>)
11447	0x6738	朸 (<CJK Ideograph>)
11448	0x673B	朻 (<CJK Ideograph>)
11449	0x673A	机 (<CJK Ideograph>)
11450	0x673F	朿 (<CJK Ideograph>)
11451	0x673C	朼 (<CJK Ideograph>)
11452	0x6733	朳 (<CJK Ideograph>)
11453	0x6C18	氘 (<CJK Ideograph>)
11454	0x6C46	汆 (<CJK Ideograph>)
11455	0x6C52	汒 (<CJK Ideograph>)
11456	0x6C5C	汜 (<CJK Ideograph>)
11457	0x6C4F	汏 (<CJK Ideograph>)
11458	0x6C4A	汊 (<CJK Ideograph>)
11459	0x6C54	汔 (<CJK Ideograph>)
11460	0x6C4B	汋 (<CJK Ideograph>)
"#

/-- encoding_tables/whatwg/index-big5.txt:10276-10432 -/
noncomputable def index73 : List Text := lines! r#"11461	0x6C4C	汌 (<CJK Ideograph>)
11462	0x7071	灱 (<CJK Ideograph>)
11463	0x725E	牞 (<CJK Ideograph>)
11464	0x72B4	犴 (<CJK Ideograph>)
11465	0x72B5	犵 (<CJK Ideograph>)
11466	0x738E	玎 (<CJK Ideograph>)
11467	0x752A	甪 (<CJK Ideograph>)
11468	0x767F	癿 (<CJK Ideograph>)
11469	0x7A75	穵 (<CJK Ideograph>)
11470	0x7F51	网 (<CJK Ideograph>)
11471	0x8278	艸 (<CJK Ideograph>)
11472	0x827C	艼 (<CJK Ideograph>)
11473	0x8280	芀 (<CJK Ideograph>)
11474	0x827D	艽 (<CJK Ideograph>)
11475	0x827F	艿 (<CJK Ideograph>)
11476	0x864D	虍 (<CJK Ideograph>)
11477	0x897E	襾 (<CJK Ideograph>)
11478	0x9099	邙 (<CJK Ideograph>)
11479	0x9097	邗 (<CJK Ideograph>)
11480	0x9098	邘 (<CJK Ideograph>)
11481	0x909B	邛 (<CJK Ideograph>)
11482	0x9094	邔 (<CJK Ideograph>)
11483	0x9622	阢 (<CJK Ideograph>)
11484	0x9624	阤 (<CJK Ideograph>)
11485	0x9620	阠 (<CJK Ideograph>)
11486	0x9623	阣 (<CJK Ideograph>)
11487	0x4F56	佖 (<CJK Ideograph>)
11488	0x4F3B	伻 (<CJK Ideograph>)
11489	0x4F62	佢 (<CJK Ideograph>)
11490	0x4F49	佉 (<CJK Ideograph>)
11491	0x4F53	体 (<CJK Ideograph>)
11492	0x4F64	佤 (<CJK Ideograph>)
11493	0x4F3E	伾 (<CJK Ideograph>)
11494	0x4F67	佧 (<CJK Ideograph>)
11495	0x4F52	佒 (<CJK Ideograph>)
11496	0x4F5F	佟 (<CJK Ideograph>)
11497	0x4F41	佁 (<CJK Ideograph>)
11498	0x4F58	佘 (<CJK Ideograph>)
11499	0x4F2D	伭 (<CJK Ideograph>)
11500	0x4F33	伳 (<CJK Ideograph>)
11501	0x4F3F	伿 (<CJK Ideograph>)
11502	0x4F61	佡 (<CJK Ideograph>)
11503	0x518F	冏 (<CJK Ideograph>)
11504	0x51B9	冹 (<CJK Ideograph>)
11505	0x521C	刜 (<CJK Ideograph>)
11506	0x521E	刞 (<CJK Ideograph>)
11507	0x5221	刡 (<CJK Ideograph>)
11508	0x52AD	劭 (<CJK Ideograph>)
11509	0x52AE	劮 (<CJK Ideograph>)
11510	0x5309	匉 (<CJK Ideograph>)
11511	0x5363	卣 (<CJK Ideograph>)
11512	0x5372	卲 (<CJK Ideograph>)
11513	0x538E	厎 (<CJK Ideograph>)
11514	0x538F	厏 (<CJK Ideograph>)
11515	0x5430	吰 (<CJK Ideograph>)
11516	0x5437	吷 (<CJK Ideograph>)
11517	0x542A	吪 (<CJK Ideograph>)
11518	0x5454	呔 (<CJK Ideograph>)
11519	0x5445	呅 (<CJK Ideograph>)
11520	0x5419	吙 (<CJK Ideograph>)
11521	0x541C	吜 (<CJK Ideograph>)
11522	0x5425	吥 (<CJK Ideograph>)
11523	0x5418	吘 (<CJK Ideograph>)
11524	0x543D	吽 (<CJK Ideograph>)
11525	0x544F	呏 (<CJK Ideograph>)
11526	0x5441	呁 (<CJK Ideograph>)
11527	0x5428	吨 (<CJK Ideograph>)
11528	0x5424	吤 (<CJK Ideograph>)
11529	0x5447	呇 (<CJK Ideograph>)
11530	0x56EE	囮 (<CJK Ideograph>)
11531	0x56E7	囧 (<CJK Ideograph>)
11532	0x56E5	囥 (<CJK Ideograph>)
11533	0x5741	坁 (<CJK Ideograph>)
11534	0x5745	坅 (<CJK Ideograph>)
11535	0x574C	坌 (<CJK Ideograph>)
11536	0x5749	坉 (<CJK Ideograph>)
11537	0x574B	坋 (<CJK Ideograph>)
11538	0x5752	坒 (<CJK Ideograph>)
11539	0x5906	夆 (<CJK Ideograph>)
11540	0x5940	奀 (<CJK Ideograph>)
11541	0x59A6	妦 (<CJK Ideograph>)
11542	0x5998	妘 (<CJK Ideograph>)
11543	0x59A0	妠 (<CJK Ideograph>)
11544	0x5997	妗 (<CJK Ideograph>)
11545	0x598E	妎 (<CJK Ideograph>)
11546	0x59A2	妢 (<CJK Ideograph>)
11547	0x5990	妐 (<CJK Ideograph>)
11548	0x598F	妏 (<CJK Ideograph>)
11549	0x59A7	妧 (<CJK Ideograph>)
11550	0x59A1	妡 (<CJK Ideograph>)
11551	0x5B8E	宎 (<CJK Ideograph>)
11552	0x5B92	宒 (<CJK Ideograph>)
11553	0x5C28	尨 (<CJK Ideograph>)
11554	0x5C2A	尪 (<CJK Ideograph>)
11555	0x5C8D	岍 (<CJK Ideograph>)
11556	0x5C8F	岏 (<CJK Ideograph>)
11557	0x5C88	岈 (<CJK Ideograph>)
11558	0x5C8B	岋 (<CJK Ideograph>)
11559	0x5C89	岉 (<CJK Ideograph>)
11560	0x5C92	岒 (<CJK Ideograph>)
11561	0x5C8A	岊 (<CJK Ideograph>)
11562	0x5C86	岆 (<CJK Ideograph>)
11563	0x5C93	岓 (<CJK Ideograph>)
11564	0x5C95	岕 (<CJK Ideograph>)
11565	0x5DE0	巠 (<CJK Ideograph>)
11566	0x5E0A	帊 (<CJK Ideograph>)
11567	0x5E0E	帎 (<CJK Ideograph>)
11568	0x5E8B	庋 (<CJK Ideograph>)
11569	0x5E89	庉 (<CJK Ideograph>)
11570	0x5E8C	庌 (<CJK Ideograph>)
11571	0x5E88	庈 (<CJK Ideograph>)
11572	0x5E8D	庍 (<CJK Ideograph>)
11573	0x5F05	弅 (<CJK Ideograph>)
11574	0x5F1D	弝 (<CJK Ideograph>)
11575	0x5F78	彸 (<CJK Ideograph>)
11576	0x5F76	彶 (<CJK Ideograph>)
11577	0x5FD2	忒 (<CJK Ideograph>)
11578	0x5FD1	忑 (<CJK Ideograph>)
11579	0x5FD0	忐 (<CJK Ideograph>)
11580	0x5FED	忭 (<CJK Ideograph>)
11581	0x5FE8	忨 (<CJK Ideograph>)
11582	0x5FEE	忮 (<CJK Ideograph>)
11583	0x5FF3	忳 (<CJK Ideograph>)
11584	0x5FE1	忡 (<CJK Ideograph>)
11585	0x5FE4	忤 (<CJK Ideograph>)
11586	0x5FE3	忣 (<CJK Ideograph>)
11587	0x5FFA	忺 (<CJK Ideograph>)
11588	0x5FEF	忯 (<CJK Ideograph>)
11589	0x5FF7	忷 (<CJK Ideograph>)
11590	0x5FFB	忻 (<CJK Ideograph>)
11591	0x6000	怀 (<CJK Ideograph>)
11592	0x5FF4	忴 (<CJK Ideograph>)
11593	0x623A	戺 (<CJK Ideograph>)
11594	0x6283	抃 (<CJK Ideograph>)
11595	0x628C	抌 (<CJK Ideograph>)
11596	0x628E	抎 (<CJK Ideograph>)
11597	0x628F	抏 (<CJK Ideograph>)
11598	0x6294	抔 (<CJK Ideograph>)
11599	0x6287	抇 (<CJK Ideograph>)
11600	0x6271	扱 (<CJK Ideograph>)
11601	0x627B	扻 (<CJK Ideograph>)
11602	0x627A	扺 (<CJK Ideograph>)
11603	0x6270	扰 (<CJK Ideograph>)
11604	0x6281	抁 (<CJK Ideograph>)
11605	0x6288	抈 (<CJK Ideograph>)
11606	0x6277	扷 (<CJK Ideograph>)
11607	0x627D	扽 (<CJK Ideograph>)
11608	0x6272	扲 (<CJK Ideograph>)
11609	0x6274	扴 (<CJK Ideograph>)
11610	0x6537	攷 (<CJK Ideograph>)
11611	0x65F0	旰 (<CJK Ideograph>)
11612	0x65F4	旴 (<CJK Ideograph>)
11613	0x65F3	旳 (<CJK Ideograph>)
11614	0x65F2	旲 (<CJK Ideograph>)
11615	0x65F5	旵 (<CJK Ideograph>)
11616	0x6745	杅 (<CJK Ideograph>)
11617	0x6747	杇 (<CJK Ideograph>)
"#

/-- encoding_tables/whatwg/index-big5.txt:10433-10589 -/
noncomputable def index74 : List Text := lines! r#"11618	0x6759	杙 (<CJK Ideograph>)
11619	0x6755	杕 (<CJK Ideograph>)
11620	0x674C	杌 (<CJK Ideograph>)
11621	0x6748	杈 (<CJK Ideograph>)
11622	0x675D	杝 (<CJK Ideograph>)
11623	0x674D	杍 (<CJK Ideograph>)
11624	0x675A	杚 (<CJK Ideograph>)
11625	0x674B	杋 (<CJK Ideograph>)
11626	0x6BD0	毐 (<CJK Ideograph>)
11627	0x6C19	氙 (<CJK Ideograph>)
11628	0x6C1A	氚 (<CJK Ideograph>)
11629	0x6C78	汸 (<CJK Ideograph>)
11630	0x6C67	汧 (<CJK Ideograph>)
11631	0x6C6B	汫 (<CJK Ideograph>)
11632	0x6C84	沄 (<CJK Ideograph>)
11633	0x6C8B	沋 (<CJK Ideograph>)
11634	0x6C8F	沏 (<CJK Ideograph>)
11635	0x6C71	汱 (<CJK Ideograph>)
11636	0x6C6F	汯 (<CJK Ideograph>)
11637	0x6C69	汩 (<CJK Ideograph>)
11638	0x6C9A	沚 (<CJK Ideograph>)
11639	0x6C6D	汭 (<CJK Ideograph>)
11640	0x6C87	沇 (<CJK Ideograph>)
11641	0x6C95	沕 (<CJK Ideograph>)
11642	0x6C9C	沜 (<CJK Ideograph>)
11643	0x6C66	汦 (<CJK Ideograph>)
11644	0x6C73	汳 (<CJK Ideograph>)
11645	0x6C65	汥 (<CJK Ideograph>)
11646	0x6C7B	汻 (<CJK Ideograph>)
11647	0x6C8E	沎 (<CJK Ideograph>)
11648	0x7074	灴 (<CJK Ideograph>)
11649	0x707A	灺 (<CJK Ideograph>)
11650	0x7263	牣 (<CJK Ideograph>)
11651	0x72BF	犿 (<CJK Ideograph>)
11652	0x72BD	犽 (<CJK Ideograph>)
11653	0x72C3	狃 (<CJK Ideograph>)
11654	0x72C6	狆 (<CJK Ideograph>)
11655	0x72C1	狁 (<CJK Ideograph>)
11656	0x72BA	犺 (<CJK Ideograph>)
11657	0x72C5	狅 (<CJK Ideograph>)
11658	0x7395	玕 (<CJK Ideograph>)
11659	0x7397	玗 (<CJK Ideograph>)
11660	0x7393	玓 (<CJK Ideograph>)
11661	0x7394	玔 (<CJK Ideograph>)
11662	0x7392	玒 (<CJK Ideograph>)
11663	0x753A	町 (<CJK Ideograph>)
11664	0x7539	甹 (<CJK Ideograph>)
11665	0x7594	疔 (<CJK Ideograph>)
11666	0x7595	疕 (<CJK Ideograph>)
11667	0x7681	皁 (<CJK Ideograph>)
11668	0x793D	礽 (<CJK Ideograph>)
11669	0x8034	耴 (<CJK Ideograph>)
11670	0x8095	肕 (<CJK Ideograph>)
11671	0x8099	肙 (<CJK Ideograph>)
11672	0x8090	肐 (<CJK Ideograph>)
11673	0x8092	肒 (<CJK Ideograph>)
11674	0x809C	肜 (<CJK Ideograph>)
11675	0x8290	芐 (<CJK Ideograph>)
11676	0x828F	芏 (<CJK Ideograph>)
11677	0x8285	芅 (<CJK Ideograph>)
11678	0x828E	芎 (<CJK Ideograph>)
11679	0x8291	芑 (<CJK Ideograph>)
11680	0x8293	芓 (<CJK Ideograph>)
11681	0x828A	芊 (<CJK Ideograph>)
11682	0x8283	芃 (<CJK Ideograph>)
11683	0x8284	芄 (<CJK Ideograph>)
11684	0x8C78	豸 (<CJK Ideograph>)
11685	0x8FC9	迉 (<CJK Ideograph>)
11686	0x8FBF	辿 (<CJK Ideograph>)
11687	0x909F	邟 (<CJK Ideograph>)
11688	0x90A1	邡 (<CJK Ideograph>)
11689	0x90A5	邥 (<CJK Ideograph>)
11690	0x909E	邞 (<CJK Ideograph>)
11691	0x90A7	邧 (<CJK Ideograph>)
11692	0x90A0	邠 (<CJK Ideograph>)
11693	0x9630	阰 (<CJK Ideograph>)
11694	0x9628	阨 (<CJK Ideograph>)
11695	0x962F	阯 (<CJK Ideograph>)
11696	0x962D	阭 (<CJK Ideograph>)
11697	0x4E33	丳 (<CJK Ideograph>)
11698	0x4F98	侘 (<CJK Ideograph>)
11699	0x4F7C	佼 (<CJK Ideograph>)
11700	0x4F85	侅 (<CJK Ideograph>)
11701	0x4F7D	佽 (<CJK Ideograph>)
11702	0x4F80	侀 (<CJK Ideograph>)
11703	0x4F87	侇 (<CJK Ideograph>)
11704	0x4F76	佶 (<CJK Ideograph>)
11705	0x4F74	佴 (<CJK Ideograph>)
11706	0x4F89	侉 (<CJK Ideograph>)
11707	0x4F84	侄 (<CJK Ideograph>)
11708	0x4F77	佷 (<CJK Ideograph>)
11709	0x4F4C	佌 (<CJK Ideograph>)
11710	0x4F97	侗 (<CJK Ideograph>)
11711	0x4F6A	佪 (<CJK Ideograph>)
11712	0x4F9A	侚 (<CJK Ideograph>)
11713	0x4F79	佹 (<CJK Ideograph>)
11714	0x4F81	侁 (<CJK Ideograph>)
11715	0x4F78	佸 (<CJK Ideograph>)
11716	0x4F90	侐 (<CJK Ideograph>)
11717	0x4F9C	侜 (<CJK Ideograph>)
11718	0x4F94	侔 (<CJK Ideograph>)
11719	0x4F9E	侞 (<CJK Ideograph>)
11720	0x4F92	侒 (<CJK Ideograph>)
11721	0x4F82	侂 (<CJK Ideograph>)
11722	0x4F95	侕 (<CJK Ideograph>)
11723	0x4F6B	佫 (<CJK Ideograph>)
11724	0x4F6E	佮 (<CJK Ideograph>)
11725	0x519E	冞 (<CJK Ideograph>)
11726	0x51BC	冼 (<CJK Ideograph>)
11727	0x51BE	冾 (<CJK Ideograph>)
11728	0x5235	刵 (<CJK Ideograph>)
11729	0x5232	刲 (<CJK Ideograph>)
11730	0x5233	刳 (<CJK Ideograph>)
11731	0x5246	剆 (<CJK Ideograph>)
11732	0x5231	刱 (<CJK Ideograph>)
11733	0x52BC	劼 (<CJK Ideograph>)
11734	0x530A	匊 (<CJK Ideograph>)
11735	0x530B	匋 (<CJK Ideograph>)
11736	0x533C	匼 (<CJK Ideograph>)
11737	0x5392	厒 (<CJK Ideograph>)
11738	0x5394	厔 (<CJK Ideograph>)
11739	0x5487	咇 (<CJK Ideograph>)
11740	0x547F	呿 (<CJK Ideograph>)
11741	0x5481	咁 (<CJK Ideograph>)
11742	0x5491	咑 (<CJK Ideograph>)
11743	0x5482	咂 (<CJK Ideograph>)
11744	0x5488	咈 (<CJK Ideograph>)
11745	0x546B	呫 (<CJK Ideograph>)
11746	0x547A	呺 (<CJK Ideograph>)
11747	0x547E	呾 (<CJK Ideograph>)
11748	0x5465	呥 (<CJK Ideograph>)
11749	0x546C	呬 (<CJK Ideograph>)
11750	0x5474	呴 (<CJK Ideograph>)
11751	0x5466	呦 (<CJK Ideograph>)
11752	0x548D	咍 (<CJK Ideograph>)
11753	0x546F	呯 (<CJK Ideograph>)
11754	0x5461	呡 (<CJK Ideograph>)
11755	0x5460	呠 (<CJK Ideograph>)
11756	0x5498	咘 (<CJK Ideograph>)
11757	0x5463	呣 (<CJK Ideograph>)
11758	0x5467	呧 (<CJK Ideograph>)
11759	0x5464	呤 (<CJK Ideograph>)
11760	0x56F7	囷 (<CJK Ideograph>)
11761	0x56F9	囹 (<CJK Ideograph>)
11762	0x576F	坯 (<CJK Ideograph>)
11763	0x5772	坲 (<CJK Ideograph>)
11764	0x576D	坭 (<CJK Ideograph>)
11765	0x576B	坫 (<CJK Ideograph>)
11766	0x5771	坱 (<CJK Ideograph>)
11767	0x5770	坰 (<CJK Ideograph>)
11768	0x5776	坶 (<CJK Ideograph>)
11769	0x5780	垀 (<CJK Ideograph>)
11770	0x5775	坵 (<CJK Ideograph>)
11771	0x577B	坻 (<CJK Ideograph>)
11772	0x5773	坳 (<CJK Ideograph>)
11773	0x5774	坴 (<CJK Ideograph>)
11774	0x5762	坢 (<CJK Ideograph>)
"#

/-- encoding_tables/whatwg/index-big5.txt:10590-10746 -/
noncomputable def index75 : List Text := lines! r#"11775	0x5768	坨 (<CJK Ideograph>)
11776	0x577D	坽 (<CJK Ideograph>)
11777	0x590C	夌 (<CJK Ideograph>)
11778	0x5945	奅 (<CJK Ideograph>)
11779	0x59B5	妵 (<CJK Ideograph>)
11780	0x59BA	妺 (<CJK Ideograph>)
11781	0x59CF	姏 (<CJK Ideograph>)
11782	0x59CE	姎 (<CJK Ideograph>)
11783	0x59B2	妲 (<CJK Ideograph>)
11784	0x59CC	姌 (<CJK Ideograph>)
11785	0x59C1	姁 (<CJK Ideograph>)
11786	0x59B6	妶 (<CJK Ideograph>)
11787	0x59BC	妼 (<CJK Ideograph>)
11788	0x59C3	姃 (<CJK Ideograph>)
11789	0x59D6	姖 (<CJK Ideograph>)
11790	0x59B1	妱 (<CJK Ideograph>)
11791	0x59BD	妽 (<CJK Ideograph>)
11792	0x59C0	姀 (<CJK Ideograph>)
11793	0x59C8	姈 (<CJK Ideograph>)
11794	0x59B4	妴 (<CJK Ideograph>)
11795	0x59C7	姇 (<CJK Ideograph>)
11796	0x5B62	孢 (<CJK Ideograph>)
11797	0x5B65	孥 (<CJK Ideograph>)
11798	0x5B93	宓 (<CJK Ideograph>)
11799	0x5B95	宕 (<CJK Ideograph>)
11800	0x5C44	屄 (<CJK Ideograph>)
11801	0x5C47	屇 (<CJK Ideograph>)
11802	0x5CAE	岮 (<CJK Ideograph>)
11803	0x5CA4	岤 (<CJK Ideograph>)
11804	0x5CA0	岠 (<CJK Ideograph>)
11805	0x5CB5	岵 (<CJK Ideograph>)
11806	0x5CAF	岯 (<CJK Ideograph>)
11807	0x5CA8	岨 (<CJK Ideograph>)
11808	0x5CAC	岬 (<CJK Ideograph>)
11809	0x5C9F	岟 (<CJK Ideograph>)
11810	0x5CA3	岣 (<CJK Ideograph>)
11811	0x5CAD	岭 (<CJK Ideograph>)
11812	0x5CA2	岢 (<CJK Ideograph>)
11813	0x5CAA	岪 (<CJK Ideograph>)
11814	0x5CA7	岧 (<CJK Ideograph>)
11815	0x5C9D	岝 (<CJK Ideograph>)
11816	0x5CA5	岥 (<CJK Ideograph>)
11817	0x5CB6	岶 (<CJK Ideograph>)
11818	0x5CB0	岰 (<CJK Ideograph>)
11819	0x5CA6	岦 (<CJK Ideograph>)
11820	0x5E17	帗 (<CJK Ideograph>)
11821	0x5E14	帔 (<CJK Ideograph>)
11822	0x5E19	帙 (<CJK Ideograph>)
11823	0x5F28	弨 (<CJK Ideograph>)
11824	0x5F22	弢 (<CJK Ideograph>)
11825	0x5F23	弣 (<CJK Ideograph>)
11826	0x5F24	弤 (<CJK Ideograph>)
11827	0x5F54	彔 (<CJK Ideograph>)
11828	0x5F82	徂 (<CJK Ideograph>)
11829	0x5F7E	彾 (<CJK Ideograph>)
11830	0x5F7D	彽 (<CJK Ideograph>)
11831	0x5FDE	忞 (<CJK Ideograph>)
11832	0x5FE5	忥 (<CJK Ideograph>)
11833	0x602D	怭 (<CJK Ideograph>)
11834	0x6026	怦 (<CJK Ideograph>)
11835	0x6019	怙 (<CJK Ideograph>)
11836	0x6032	怲 (<CJK Ideograph>)
11837	0x600B	怋 (<CJK Ideograph>)
11838	0x6034	怴 (<CJK Ideograph>)
11839	0x600A	怊 (<CJK Ideograph>)
11840	0x6017	怗 (<CJK Ideograph>)
11841	0x6033	怳 (<CJK Ideograph>)
11842	0x601A	怚 (<CJK Ideograph>)
11843	0x601E	怞 (<CJK Ideograph>)
11844	0x602C	怬 (<CJK Ideograph>)
11845	0x6022	怢 (<CJK Ideograph>)
11846	0x600D	怍 (<CJK Ideograph>)
11847	0x6010	怐 (<CJK Ideograph>)
11848	0x602E	怮 (<CJK Ideograph>)
11849	0x6013	怓 (<CJK Ideograph>)
11850	0x6011	怑 (<CJK Ideograph>)
11851	0x600C	怌 (<CJK Ideograph>)
11852	0x6009	怉 (<CJK Ideograph>)
11853	0x601C	怜 (<CJK Ideograph>)
11854	0x6214	戔 (<CJK Ideograph>)
11855	0x623D	戽 (<CJK Ideograph>)
11856	0x62AD	抭 (<CJK Ideograph>)
11857	0x62B4	抴 (<CJK Ideograph>)
11858	0x62D1	拑 (<CJK Ideograph>)
11859	0x62BE	抾 (<CJK Ideograph>)
11860	0x62AA	抪 (<CJK Ideograph>)
11861	0x62B6	抶 (<CJK Ideograph>)
11862	0x62CA	拊 (<CJK Ideograph>)
11863	0x62AE	抮 (<CJK Ideograph>)
11864	0x62B3	抳 (<CJK Ideograph>)
11865	0x62AF	抯 (<CJK Ideograph>)
11866	0x62BB	抻 (<CJK Ideograph>)
11867	0x62A9	抩 (<CJK Ideograph>)
11868	0x62B0	抰 (<CJK Ideograph>)
11869	0x62B8	抸 (<CJK Ideograph>)
11870	0x653D	攽 (<CJK Ideograph>)
11871	0x65A8	斨 (<CJK Ideograph>)
11872	0x65BB	斻 (<CJK Ideograph>)
11873	0x6609	昉 (<CJK Ideograph>)
11874	0x65FC	旼 (<CJK Ideograph>)
11875	0x6604	昄 (<CJK Ideograph>)
11876	0x6612	昒 (<CJK Ideograph>)
11877	0x6608	昈 (<CJK Ideograph>)
11878	0x65FB	旻 (<CJK Ideograph>)
11879	0x6603	昃 (<CJK Ideograph>)
11880	0x660B	昋 (<CJK Ideograph>)
11881	0x660D	昍 (<CJK Ideograph>)
11882	0x6605	昅 (<CJK Ideograph>)
11883	0x65FD	旽 (<CJK Ideograph>)
11884	0x6611	昑 (<CJK Ideograph>)
11885	0x6610	昐 (<CJK Ideograph>)
11886	0x66F6	曶 (<CJK Ideograph>)
11887	0x670A	朊 (<CJK Ideograph>)
11888	0x6785	枅 (<CJK Ideograph>)
11889	0x676C	杬 (<CJK Ideograph>)
11890	0x678E	枎 (<CJK Ideograph>)
11891	0x6792	枒 (<CJK Ideograph>)
11892	0x6776	杶 (<CJK Ideograph>)
11893	0x677B	杻 (<CJK Ideograph>)
11894	0x6798	枘 (<CJK Ideograph>)
11895	0x6786	枆 (<CJK Ideograph>)
11896	0x6784	构 (<CJK Ideograph>)
11897	0x6774	杴 (<CJK Ideograph>)
11898	0x678D	枍 (<CJK Ideograph>)
11899	0x678C	枌 (<CJK Ideograph>)
11900	0x677A	杺 (<CJK Ideograph>)
11901	0x679F	枟 (<CJK Ideograph>)
11902	0x6791	枑 (<CJK Ideograph>)
11903	0x6799	枙 (<CJK Ideograph>)
11904	0x6783	枃 (<CJK Ideograph>)
11905	0x677D	杽 (<CJK Ideograph>)
11906	0x6781	极 (<CJK Ideograph>)
11907	0x6778	杸 (<CJK Ideograph>)
11908	0x6779	杹 (<CJK Ideograph>)
11909	0x6794	枔 (<CJK Ideograph>)
11910	0x6B25	欥 (<CJK Ideograph>)
11911	0x6B80	殀 (<CJK Ideograph>)
11912	0x6B7E	歾 (<CJK Ideograph>)
11913	0x6BDE	毞 (<CJK Ideograph>)
11914	0x6C1D	氝 (<CJK Ideograph>)
11915	0x6C93	沓 (<CJK Ideograph>)
11916	0x6CEC	泬 (<CJK Ideograph>)
11917	0x6CEB	泫 (<CJK Ideograph>)
11918	0x6CEE	泮 (<CJK Ideograph>)
11919	0x6CD9	泙 (<CJK Ideograph>)
11920	0x6CB6	沶 (<CJK Ideograph>)
11921	0x6CD4	泔 (<CJK Ideograph>)
11922	0x6CAD	沭 (<CJK Ideograph>)
11923	0x6CE7	泧 (<CJK Ideograph>)
11924	0x6CB7	沷 (<CJK Ideograph>)
11925	0x6CD0	泐 (<CJK Ideograph>)
11926	0x6CC2	泂 (<CJK Ideograph>)
11927	0x6CBA	沺 (<CJK Ideograph>)
11928	0x6CC3	泃 (<CJK Ideograph>)
11929	0x6CC6	泆 (<CJK Ideograph>)
11930	0x6CED	泭 (<CJK Ideograph>)
11931	0x6CF2	泲 (<CJK Ideograph>)
"#

/-- encoding_tables/whatwg/index-big5.txt:10747-10903 -/
noncomputable def index76 : List Text := lines! r#"11932	0x6CD2	泒 (<CJK Ideograph>)
11933	0x6CDD	泝 (<CJK Ideograph>)
11934	0x6CB4	沴 (<CJK Ideograph>)
11935	0x6C8A	沊 (<CJK Ideograph>)
11936	0x6C9D	沝 (<CJK Ideograph>)
11937	0x6C80	沀 (<CJK Ideograph>)
11938	0x6CDE	泞 (<CJK Ideograph>)
11939	0x6CC0	泀 (<CJK Ideograph>)
11940	0x6D30	洰 (<CJK Ideograph>)
11941	0x6CCD	泍 (<CJK Ideograph>)
11942	0x6CC7	泇 (<CJK Ideograph>)
11943	0x6CB0	沰 (<CJK Ideograph>)
11944	0x6CF9	泹 (<CJK Ideograph>)
11945	0x6CCF	泏 (<CJK Ideograph>)
11946	0x6CE9	泩 (<CJK Ideograph>)
11947	0x6CD1	泑 (<CJK Ideograph>)
11948	0x7094	炔 (<CJK Ideograph>)
11949	0x7098	炘 (<CJK Ideograph>)
11950	0x7085	炅 (<CJK Ideograph>)
11951	0x7093	炓 (<CJK Ideograph>)
11952	0x7086	炆 (<CJK Ideograph>)
11953	0x7084	炄 (<CJK Ideograph>)
11954	0x7091	炑 (<CJK Ideograph>)
11955	0x7096	炖 (<CJK Ideograph>)
11956	0x7082	炂 (<CJK Ideograph>)
11957	0x709A	炚 (<CJK Ideograph>)
11958	0x7083	炃 (<CJK Ideograph>)
11959	0x726A	牪 (<CJK Ideograph>)
11960	0x72D6	狖 (<CJK Ideograph>)
11961	0x72CB	狋 (<CJK Ideograph>)
11962	0x72D8	狘 (<CJK Ideograph>)
11963	0x72C9	狉 (<CJK Ideograph>)
11964	0x72DC	狜 (<CJK Ideograph>)
11965	0x72D2	狒 (<CJK Ideograph>)
11966	0x72D4	狔 (<CJK Ideograph>)
11967	0x72DA	狚 (<CJK Ideograph>)
11968	0x72CC	狌 (<CJK Ideograph>)
11969	0x72D1	狑 (<CJK Ideograph>)
11970	0x73A4	玤 (<CJK Ideograph>)
11971	0x73A1	玡 (<CJK Ideograph>)
11972	0x73AD	玭 (<CJK Ideograph>)
11973	0x73A6	玦 (<CJK Ideograph>)
11974	0x73A2	玢 (<CJK Ideograph>)
11975	0x73A0	玠 (<CJK Ideograph>)
11976	0x73AC	玬 (<CJK Ideograph>)
11977	0x739D	玝 (<CJK Ideograph>)
11978	0x74DD	瓝 (<CJK Ideograph>)
11979	0x74E8	瓨 (<CJK Ideograph>)
11980	0x753F	甿 (<CJK Ideograph>)
11981	0x7540	畀 (<CJK Ideograph>)
11982	0x753E	甾 (<CJK Ideograph>)
11983	0x758C	疌 (<CJK Ideograph>)
11984	0x7598	疘 (<CJK Ideograph>)
11985	0x76AF	皯 (<CJK Ideograph>)
11986	0x76F3	盳 (<CJK Ideograph>)
11987	0x76F1	盱 (<CJK Ideograph>)
11988	0x76F0	盰 (<CJK Ideograph>)
11989	0x76F5	盵 (<CJK Ideograph>)
11990	0x77F8	矸 (<CJK Ideograph>)
11991	0x77FC	矼 (<CJK Ideograph>)
11992	0x77F9	矹 (<CJK Ideograph>)
11993	0x77FB	矻 (<CJK Ideograph>)
11994	0x77FA	矺 (<CJK Ideograph>)
11995	0x77F7	矷 (<CJK Ideograph>)
11996	0x7942	祂 (<CJK Ideograph>)
11997	0x793F	礿 (<CJK Ideograph>)
11998	0x79C5	秅 (<CJK Ideograph>)
11999	0x7A78	穸 (<CJK Ideograph>)
12000	0x7A7B	穻 (<CJK Ideograph>)
12001	0x7AFB	竻 (<CJK Ideograph>)
12002	0x7C75	籵 (<CJK Ideograph>)
12003	0x7CFD	糽 (<CJK Ideograph>)
12004	0x8035	耵 (<CJK Ideograph>)
12005	0x808F	肏 (<CJK Ideograph>)
12006	0x80AE	肮 (<CJK Ideograph>)
12007	0x80A3	肣 (<CJK Ideograph>)
12008	0x80B8	肸 (<CJK Ideograph>)
12009	0x80B5	肵 (<CJK Ideograph>)
12010	0x80AD	肭 (<CJK Ideograph>)
12011	0x8220	舠 (<CJK Ideograph>)
12012	0x82A0	芠 (<CJK Ideograph>)
12013	0x82C0	苀 (<CJK Ideograph>)
12014	0x82AB	芫 (<CJK Ideograph>)
12015	0x829A	芚 (<CJK Ideograph>)
12016	0x8298	芘 (<CJK Ideograph>)
12017	0x829B	芛 (<CJK Ideograph>)
12018	0x82B5	芵 (<CJK Ideograph>)
12019	0x82A7	芧 (<CJK Ideograph>)
12020	0x82AE	芮 (<CJK Ideograph>)
12021	0x82BC	芼 (<CJK Ideograph>)
12022	0x829E	芞 (<CJK Ideograph>)
12023	0x82BA	芺 (<CJK Ideograph>)
12024	0x82B4	芴 (<CJK Ideograph>)
12025	0x82A8	芨 (<CJK Ideograph>)
12026	0x82A1	芡 (<CJK Ideograph>)
12027	0x82A9	芩 (<CJK Ideograph>)
12028	0x82C2	苂 (<CJK Ideograph>)
12029	0x82A4	芤 (<CJK Ideograph>)
12030	0x82C3	苃 (<CJK Ideograph>)
12031	0x82B6	芶 (<CJK Ideograph>)
12032	0x82A2	芢 (<CJK Ideograph>)
12033	0x8670	虰 (<CJK Ideograph>)
12034	0x866F	虯 (<CJK Ideograph>)
12035	0x866D	虭 (<CJK Ideograph>)
12036	0x866E	虮 (<CJK Ideograph>)
12037	0x8C56	豖 (<CJK Ideograph>)
12038	0x8FD2	迒 (<CJK Ideograph>)
12039	0x8FCB	迋 (<CJK Ideograph>)
12040	0x8FD3	迓 (<CJK Ideograph>)
12041	0x8FCD	迍 (<CJK Ideograph>)
12042	0x8FD6	迖 (<CJK Ideograph>)
12043	0x8FD5	迕 (<CJK Ideograph>)
12044	0x8FD7	迗 (<CJK Ideograph>)
12045	0x90B2	邲 (<CJK Ideograph>)
12046	0x90B4	邴 (<CJK Ideograph>)
12047	0x90AF	邯 (<CJK Ideograph>)
12048	0x90B3	邳 (<CJK Ideograph>)
12049	0x90B0	邰 (<CJK Ideograph>)
12050	0x9639	阹 (<CJK Ideograph>)
12051	0x963D	阽 (<CJK Ideograph>)
12052	0x963C	阼 (<CJK Ideograph>)
12053	0x963A	阺 (<CJK Ideograph>)
12054	0x9643	陃 (<CJK Ideograph>)
12055	0x4FCD	俍 (<CJK Ideograph>)
12056	0x4FC5	俅 (<CJK Ideograph>)
12057	0x4FD3	俓 (<CJK Ideograph>)
12058	0x4FB2	侲 (<CJK Ideograph>)
12059	0x4FC9	俉 (<CJK Ideograph>)
12060	0x4FCB	俋 (<CJK Ideograph>)
12061	0x4FC1	俁 (<CJK Ideograph>)
12062	0x4FD4	俔 (<CJK Ideograph>)
12063	0x4FDC	俜 (<CJK Ideograph>)
12064	0x4FD9	俙 (<CJK Ideograph>)
12065	0x4FBB	侻 (<CJK Ideograph>)
12066	0x4FB3	侳 (<CJK Ideograph>)
12067	0x4FDB	俛 (<CJK Ideograph>)
12068	0x4FC7	俇 (<CJK Ideograph>)
12069	0x4FD6	俖 (<CJK Ideograph>)
12070	0x4FBA	侺 (<CJK Ideograph>)
12071	0x4FC0	俀 (<CJK Ideograph>)
12072	0x4FB9	侹 (<CJK Ideograph>)
12073	0x4FEC	俬 (<CJK Ideograph>)
12074	0x5244	剄 (<CJK Ideograph>)
12075	0x5249	剉 (<CJK Ideograph>)
12076	0x52C0	勀 (<CJK Ideograph>)
12077	0x52C2	勂 (<CJK Ideograph>)
12078	0x533D	匽 (<CJK Ideograph>)
12079	0x537C	卼 (<CJK Ideograph>)
12080	0x5397	厗 (<CJK Ideograph>)
12081	0x5396	厖 (<CJK Ideograph>)
12082	0x5399	厙 (<CJK Ideograph>)
12083	0x5398	厘 (<CJK Ideograph>)
12084	0x54BA	咺 (<CJK Ideograph>)
12085	0x54A1	咡 (<CJK Ideograph>)
12086	0x54AD	咭 (<CJK Ideograph>)
12087	0x54A5	咥 (<CJK Ideograph>)
12088	0x54CF	哏 (<CJK Ideograph>)
"#

/-- encoding_tables/whatwg/index-big5.txt:10904-11060 -/
noncomputable def index77 : List Text := lines! r#"12089	0x54C3	哃 (<CJK Ideograph>)
12090	0x830D	茍 (<CJK Ideograph>)
12091	0x54B7	咷 (<CJK Ideograph>)
12092	0x54AE	咮 (<CJK Ideograph>)
12093	0x54D6	哖 (<CJK Ideograph>)
12094	0x54B6	咶 (<CJK Ideograph>)
12095	0x54C5	哅 (<CJK Ideograph>)
12096	0x54C6	哆 (<CJK Ideograph>)
12097	0x54A0	咠 (<CJK Ideograph>)
12098	0x5470	呰 (<CJK Ideograph>)
12099	0x54BC	咼 (<CJK Ideograph>)
12100	0x54A2	咢 (<CJK Ideograph>)
12101	0x54BE	咾 (<CJK Ideograph>)
12102	0x5472	呲 (<CJK Ideograph>)
12103	0x54DE	哞 (<CJK Ideograph>)
12104	0x54B0	咰 (<CJK Ideograph>)
12105	0x57B5	垵 (<CJK Ideograph>)
12106	0x579E	垞 (<CJK Ideograph>)
12107	0x579F	垟 (<CJK Ideograph>)
12108	0x57A4	垤 (<CJK Ideograph>)
12109	0x578C	垌 (<CJK Ideograph>)
12110	0x5797	垗 (<CJK Ideograph>)
12111	0x579D	垝 (<CJK Ideograph>)
12112	0x579B	垛 (<CJK Ideograph>)
12113	0x5794	垔 (<CJK Ideograph>)
12114	0x5798	垘 (<CJK Ideograph>)
12115	0x578F	垏 (<CJK Ideograph>)
12116	0x5799	垙 (<CJK Ideograph>)
12117	0x57A5	垥 (<CJK Ideograph>)
12118	0x579A	垚 (<CJK Ideograph>)
12119	0x5795	垕 (<CJK Ideograph>)
12120	0x58F4	壴 (<CJK Ideograph>)
12121	0x590D	复 (<CJK Ideograph>)
12122	0x5953	奓 (<CJK Ideograph>)
12123	0x59E1	姡 (<CJK Ideograph>)
12124	0x59DE	姞 (<CJK Ideograph>)
12125	0x59EE	姮 (<CJK Ideograph>)
12126	0x5A00	娀 (<CJK Ideograph>)
12127	0x59F1	姱 (<CJK Ideograph>)
12128	0x59DD	姝 (<CJK Ideograph>)
12129	0x59FA	姺 (<CJK Ideograph>)
12130	0x59FD	姽 (<CJK Ideograph>)
12131	0x59FC	姼 (<CJK Ideograph>)
12132	0x59F6	姶 (<CJK Ideograph>)
12133	0x59E4	姤 (<CJK Ideograph>)
12134	0x59F2	姲 (<CJK Ideograph>)
12135	0x59F7	姷 (<CJK Ideograph>)
12136	0x59DB	姛 (<CJK Ideograph>)
12137	0x59E9	姩 (<CJK Ideograph>)
12138	0x59F3	姳 (<CJK Ideograph>)
12139	0x59F5	姵 (<CJK Ideograph>)
12140	0x59E0	姠 (<CJK Ideograph>)
12141	0x59FE	姾 (<CJK Ideograph>)
12142	0x59F4	姴 (<CJK Ideograph>)
12143	0x59ED	姭 (<CJK Ideograph>)
12144	0x5BA8	宨 (<CJK Ideograph>)
12145	0x5C4C	屌 (<CJK Ideograph>)
12146	0x5CD0	峐 (<CJK Ideograph>)
12147	0x5CD8	峘 (<CJK Ideograph>)
12148	0x5CCC	峌 (<CJK Ideograph>)
12149	0x5CD7	峗 (<CJK Ideograph>)
12150	0x5CCB	峋 (<CJK Ideograph>)
12151	0x5CDB	峛 (<CJK Ideograph>)
12152	0x5CDE	峞 (<CJK Ideograph>)
12153	0x5CDA	峚 (<CJK Ideograph>)
12154	0x5CC9	峉 (<CJK Ideograph>)
12155	0x5CC7	峇 (<CJK Ideograph>)
12156	0x5CCA	峊 (<CJK Ideograph>)
12157	0x5CD6	峖 (<CJK Ideograph>)
12158	0x5CD3	峓 (<CJK Ideograph>)
12159	0x5CD4	峔 (<CJK Ideograph>)
12160	0x5CCF	峏 (<CJK Ideograph>)
12161	0x5CC8	峈 (<CJK Ideograph>)
12162	0x5CC6	峆 (<CJK Ideograph>)
12163	0x5CCE	峎 (<CJK Ideograph>)
12164	0x5CDF	峟 (<CJK Ideograph>)
12165	0x5CF8	峸 (<CJK Ideograph>)
12166	0x5DF9	巹 (<CJK Ideograph>)
12167	0x5E21	帡 (<CJK Ideograph>)
12168	0x5E22	帢 (<CJK Ideograph>)
12169	0x5E23	帣 (<CJK Ideograph>)
12170	0x5E20	帠 (<CJK Ideograph>)
12171	0x5E24	帤 (<CJK Ideograph>)
12172	0x5EB0	庰 (<CJK Ideograph>)
12173	0x5EA4	庤 (<CJK Ideograph>)
12174	0x5EA2	庢 (<CJK Ideograph>)
12175	0x5E9B	庛 (<CJK Ideograph>)
12176	0x5EA3	庣 (<CJK Ideograph>)
12177	0x5EA5	庥 (<CJK Ideograph>)
12178	0x5F07	弇 (<CJK Ideograph>)
12179	0x5F2E	弮 (<CJK Ideograph>)
12180	0x5F56	彖 (<CJK Ideograph>)
12181	0x5F86	徆 (<CJK Ideograph>)
12182	0x6037	怷 (<CJK Ideograph>)
12183	0x6039	怹 (<CJK Ideograph>)
12184	0x6054	恔 (<CJK Ideograph>)
12185	0x6072	恲 (<CJK Ideograph>)
12186	0x605E	恞 (<CJK Ideograph>)
12187	0x6045	恅 (<CJK Ideograph>)
12188	0x6053	恓 (<CJK Ideograph>)
12189	0x6047	恇 (<CJK Ideograph>)
12190	0x6049	恉 (<CJK Ideograph>)
12191	0x605B	恛 (<CJK Ideograph>)
12192	0x604C	恌 (<CJK Ideograph>)
12193	0x6040	恀 (<CJK Ideograph>)
12194	0x6042	恂 (<CJK Ideograph>)
12195	0x605F	恟 (<CJK Ideograph>)
12196	0x6024	怤 (<CJK Ideograph>)
12197	0x6044	恄 (<CJK Ideograph>)
12198	0x6058	恘 (<CJK Ideograph>)
12199	0x6066	恦 (<CJK Ideograph>)
12200	0x606E	恮 (<CJK Ideograph>)
12201	0x6242	扂 (<CJK Ideograph>)
12202	0x6243	扃 (<CJK Ideograph>)
12203	0x62CF	拏 (<CJK Ideograph>)
12204	0x630D	挍 (<CJK Ideograph>)
12205	0x630B	挋 (<CJK Ideograph>)
12206	0x62F5	拵 (<CJK Ideograph>)
12207	0x630E	挎 (<CJK Ideograph>)
12208	0x6303	挃 (<CJK Ideograph>)
12209	0x62EB	拫 (<CJK Ideograph>)
12210	0x62F9	拹 (<CJK Ideograph>)
12211	0x630F	挏 (<CJK Ideograph>)
12212	0x630C	挌 (<CJK Ideograph>)
12213	0x62F8	拸 (<CJK Ideograph>)
12214	0x62F6	拶 (<CJK Ideograph>)
12215	0x6300	挀 (<CJK Ideograph>)
12216	0x6313	挓 (<CJK Ideograph>)
12217	0x6314	挔 (<CJK Ideograph>)
12218	0x62FA	拺 (<CJK Ideograph>)
12219	0x6315	挕 (<CJK Ideograph>)
12220	0x62FB	拻 (<CJK Ideograph>)
12221	0x62F0	拰 (<CJK Ideograph>)
12222	0x6541	敁 (<CJK Ideograph>)
12223	0x6543	敃 (<CJK Ideograph>)
12224	0x65AA	斪 (<CJK Ideograph>)
12225	0x65BF	斿 (<CJK Ideograph>)
12226	0x6636	昶 (<CJK Ideograph>)
12227	0x6621	昡 (<CJK Ideograph>)
12228	0x6632	昲 (<CJK Ideograph>)
12229	0x6635	昵 (<CJK Ideograph>)
12230	0x661C	昜 (<CJK Ideograph>)
12231	0x6626	昦 (<CJK Ideograph>)
12232	0x6622	昢 (<CJK Ideograph>)
12233	0x6633	昳 (<CJK Ideograph>)
12234	0x662B	昫 (<CJK Ideograph>)
12235	0x663A	昺 (<CJK Ideograph>)
12236	0x661D	昝 (<CJK Ideograph>)
12237	0x6634	昴 (<CJK Ideograph>)
12238	0x6639	昹 (<CJK Ideograph>)
12239	0x662E	昮 (<CJK Ideograph>)
12240	0x670F	朏 (<CJK Ideograph>)
12241	0x6710	朐 (<CJK Ideograph>)
12242	0x67C1	柁 (<CJK Ideograph>)
12243	0x67F2	柲 (<CJK Ideograph>)
12244	0x67C8	柈 (<CJK Ideograph>)
12245	0x67BA	枺 (<CJK Ideograph>)
"#

/-- encoding_tables/whatwg/index-big5.txt:11061-11217 -/
noncomputable def index78 : List Text := lines! r#"12246	0x67DC	柜 (<CJK Ideograph>)
12247	0x67BB	枻 (<CJK Ideograph>)
12248	0x67F8	柸 (<CJK Ideograph>)
12249	0x67D8	柘 (<CJK Ideograph>)
12250	0x67C0	柀 (<CJK Ideograph>)
12251	0x67B7	枷 (<CJK Ideograph>)
12252	0x67C5	柅 (<CJK Ideograph>)
12253	0x67EB	柫 (<CJK Ideograph>)
12254	0x67E4	柤 (<CJK Ideograph>)
12255	0x67DF	柟 (<CJK Ideograph>)
12256	0x67B5	枵 (<CJK Ideograph>)
12257	0x67CD	柍 (<CJK Ideograph>)
12258	0x67B3	枳 (<CJK Ideograph>)
12259	0x67F7	柷 (<CJK Ideograph>)
12260	0x67F6	柶 (<CJK Ideograph>)
12261	0x67EE	柮 (<CJK Ideograph>)
12262	0x67E3	柣 (<CJK Ideograph>)
12263	0x67C2	柂 (<CJK Ideograph>)
12264	0x67B9	枹 (<CJK Ideograph>)
12265	0x67CE	柎 (<CJK Ideograph>)
12266	0x67E7	柧 (<CJK Ideograph>)
12267	0x67F0	柰 (<CJK Ideograph>)
12268	0x67B2	枲 (<CJK Ideograph>)
12269	0x67FC	柼 (<CJK Ideograph>)
12270	0x67C6	柆 (<CJK Ideograph>)
12271	0x67ED	柭 (<CJK Ideograph>)
12272	0x67CC	柌 (<CJK Ideograph>)
12273	0x67AE	枮 (<CJK Ideograph>)
12274	0x67E6	柦 (<CJK Ideograph>)
12275	0x67DB	柛 (<CJK Ideograph>)
12276	0x67FA	柺 (<CJK Ideograph>)
12277	0x67C9	柉 (<CJK Ideograph>)
12278	0x67CA	柊 (<CJK Ideograph>)
12279	0x67C3	柃 (<CJK Ideograph>)
12280	0x67EA	柪 (<CJK Ideograph>)
12281	0x67CB	柋 (<CJK Ideograph>)
12282	0x6B28	欨 (<CJK Ideograph>)
12283	0x6B82	殂 (<CJK Ideograph>)
12284	0x6B84	殄 (<CJK Ideograph>)
12285	0x6BB6	殶 (<CJK Ideograph>)
12286	0x6BD6	毖 (<CJK Ideograph>)
12287	0x6BD8	毘 (<CJK Ideograph>)
12288	0x6BE0	毠 (<CJK Ideograph>)
12289	0x6C20	氠 (<CJK Ideograph>)
12290	0x6C21	氡 (<CJK Ideograph>)
12291	0x6D28	洨 (<CJK Ideograph>)
12292	0x6D34	洴 (<CJK Ideograph>)
12293	0x6D2D	洭 (<CJK Ideograph>)
12294	0x6D1F	洟 (<CJK Ideograph>)
12295	0x6D3C	洼 (<CJK Ideograph>)
12296	0x6D3F	洿 (<CJK Ideograph>)
12297	0x6D12	洒 (<CJK Ideograph>)
12298	0x6D0A	洊 (<CJK Ideograph>)
12299	0x6CDA	泚 (<CJK Ideograph>)
12300	0x6D33	洳 (<CJK Ideograph>)
12301	0x6D04	洄 (<CJK Ideograph>)
12302	0x6D19	洙 (<CJK Ideograph>)
12303	0x6D3A	洺 (<CJK Ideograph>)
12304	0x6D1A	洚 (<CJK Ideograph>)
12305	0x6D11	洑 (<CJK Ideograph>)
12306	0x6D00	洀 (<CJK Ideograph>)
12307	0x6D1D	洝 (<CJK Ideograph>)
12308	0x6D42	浂 (<CJK Ideograph>)
12309	0x6D01	洁 (<CJK Ideograph>)
12310	0x6D18	洘 (<CJK Ideograph>)
12311	0x6D37	洷 (<CJK Ideograph>)
12312	0x6D03	洃 (<CJK Ideograph>)
12313	0x6D0F	洏 (<CJK Ideograph>)
12314	0x6D40	浀 (<CJK Ideograph>)
12315	0x6D07	洇 (<CJK Ideograph>)
12316	0x6D20	洠 (<CJK Ideograph>)
12317	0x6D2C	洬 (<CJK Ideograph>)
12318	0x6D08	洈 (<CJK Ideograph>)
12319	0x6D22	洢 (<CJK Ideograph>)
12320	0x6D09	洉 (<CJK Ideograph>)
12321	0x6D10	洐 (<CJK Ideograph>)
12322	0x70B7	炷 (<CJK Ideograph>)
12323	0x709F	炟 (<CJK Ideograph>)
12324	0x70BE	炾 (<CJK Ideograph>)
12325	0x70B1	炱 (<CJK Ideograph>)
12326	0x70B0	炰 (<CJK Ideograph>)
12327	0x70A1	炡 (<CJK Ideograph>)
12328	0x70B4	炴 (<CJK Ideograph>)
12329	0x70B5	炵 (<CJK Ideograph>)
12330	0x70A9	炩 (<CJK Ideograph>)
12331	0x7241	牁 (<CJK Ideograph>)
12332	0x7249	牉 (<CJK Ideograph>)
12333	0x724A	牊 (<CJK Ideograph>)
12334	0x726C	牬 (<CJK Ideograph>)
12335	0x7270	牰 (<CJK Ideograph>)
12336	0x7273	牳 (<CJK Ideograph>)
12337	0x726E	牮 (<CJK Ideograph>)
12338	0x72CA	狊 (<CJK Ideograph>)
12339	0x72E4	狤 (<CJK Ideograph>)
12340	0x72E8	狨 (<CJK Ideograph>)
12341	0x72EB	狫 (<CJK Ideograph>)
12342	0x72DF	狟 (<CJK Ideograph>)
12343	0x72EA	狪 (<CJK Ideograph>)
12344	0x72E6	狦 (<CJK Ideograph>)
12345	0x72E3	狣 (<CJK Ideograph>)
12346	0x7385	玅 (<CJK Ideograph>)
12347	0x73CC	珌 (<CJK Ideograph>)
12348	0x73C2	珂 (<CJK Ideograph>)
12349	0x73C8	珈 (<CJK Ideograph>)
12350	0x73C5	珅 (<CJK Ideograph>)
12351	0x73B9	玹 (<CJK Ideograph>)
12352	0x73B6	玶 (<CJK Ideograph>)
12353	0x73B5	玵 (<CJK Ideograph>)
12354	0x73B4	玴 (<CJK Ideograph>)
12355	0x73EB	珫 (<CJK Ideograph>)
12356	0x73BF	玿 (<CJK Ideograph>)
12357	0x73C7	珇 (<CJK Ideograph>)
12358	0x73BE	玾 (<CJK Ideograph>)
12359	0x73C3	珃 (<CJK Ideograph>)
12360	0x73C6	珆 (<CJK Ideograph>)
12361	0x73B8	玸 (<CJK Ideograph>)
12362	0x73CB	珋 (<CJK Ideograph>)
12363	0x74EC	瓬 (<CJK Ideograph>)
12364	0x74EE	瓮 (<CJK Ideograph>)
12365	0x752E	甮 (<CJK Ideograph>)
12366	0x7547	畇 (<CJK Ideograph>)
12367	0x7548	畈 (<CJK Ideograph>)
12368	0x75A7	疧 (<CJK Ideograph>)
12369	0x75AA	疪 (<CJK Ideograph>)
12370	0x7679	癹 (<CJK Ideograph>)
12371	0x76C4	盄 (<CJK Ideograph>)
12372	0x7708	眈 (<CJK Ideograph>)
12373	0x7703	眃 (<CJK Ideograph>)
12374	0x7704	眄 (<CJK Ideograph>)
12375	0x7705	眅 (<CJK Ideograph>)
12376	0x770A	眊 (<CJK Ideograph>)
12377	0x76F7	盷 (<CJK Ideograph>)
12378	0x76FB	盻 (<CJK Ideograph>)
12379	0x76FA	盺 (<CJK Ideograph>)
12380	0x77E7	矧 (<CJK Ideograph>)
12381	0x77E8	矨 (<CJK Ideograph>)
12382	0x7806	砆 (<CJK Ideograph>)
12383	0x7811	砑 (<CJK Ideograph>)
12384	0x7812	砒 (<CJK Ideograph>)
12385	0x7805	砅 (<CJK Ideograph>)
12386	0x7810	砐 (<CJK Ideograph>)
12387	0x780F	砏 (<CJK Ideograph>)
12388	0x780E	砎 (<CJK Ideograph>)
12389	0x7809	砉 (<CJK Ideograph>)
12390	0x7803	砃 (<CJK Ideograph>)
12391	0x7813	砓 (<CJK Ideograph>)
12392	0x794A	祊 (<CJK Ideograph>)
12393	0x794C	祌 (<CJK Ideograph>)
12394	0x794B	祋 (<CJK Ideograph>)
12395	0x7945	祅 (<CJK Ideograph>)
12396	0x7944	祄 (<CJK Ideograph>)
12397	0x79D5	秕 (<CJK Ideograph>)
12398	0x79CD	种 (<CJK Ideograph>)
12399	0x79CF	秏 (<CJK Ideograph>)
12400	0x79D6	秖 (<CJK Ideograph>)
12401	0x79CE	秎 (<CJK Ideograph>)
12402	0x7A80	窀 (<CJK Ideograph>)
"#

/-- encoding_tables/whatwg/index-big5.txt:11218-11374 -/
noncomputable def index79 : List Text := lines! r#"12403	0x7A7E	穾 (<CJK Ideograph>)
12404	0x7AD1	竑 (<CJK Ideograph>)
12405	0x7B00	笀 (<CJK Ideograph>)
12406	0x7B01	笁 (<CJK Ideograph>)
12407	0x7C7A	籺 (<CJK Ideograph>)
12408	0x7C78	籸 (<CJK Ideograph>)
12409	0x7C79	籹 (<CJK Ideograph>)
12410	0x7C7F	籿 (<CJK Ideograph>)
12411	0x7C80	粀 (<CJK Ideograph>)
12412	0x7C81	粁 (<CJK Ideograph>)
12413	0x7D03	紃 (<CJK Ideograph>)
12414	0x7D08	紈 (<CJK Ideograph>)
12415	0x7D01	紁 (<CJK Ideograph>)
12416	0x7F58	罘 (<CJK Ideograph>)
12417	0x7F91	羑 (<CJK Ideograph>)
12418	0x7F8D	羍 (<CJK Ideograph>)
12419	0x7FBE	羾 (<CJK Ideograph>)
12420	0x8007	耇 (<CJK Ideograph>)
12421	0x800E	耎 (<CJK Ideograph>)
12422	0x800F	耏 (<CJK Ideograph>)
12423	0x8014	耔 (<CJK Ideograph>)
12424	0x8037	耷 (<CJK Ideograph>)
12425	0x80D8	胘 (<CJK Ideograph>)
12426	0x80C7	胇 (<CJK Ideograph>)
12427	0x80E0	胠 (<CJK Ideograph>)
12428	0x80D1	胑 (<CJK Ideograph>)
12429	0x80C8	胈 (<CJK Ideograph>)
12430	0x80C2	胂 (<CJK Ideograph>)
12431	0x80D0	胐 (<CJK Ideograph>)
12432	0x80C5	胅 (<CJK Ideograph>)
12433	0x80E3	胣 (<CJK Ideograph>)
12434	0x80D9	胙 (<CJK Ideograph>)
12435	0x80DC	胜 (<CJK Ideograph>)
12436	0x80CA	胊 (<CJK Ideograph>)
12437	0x80D5	胕 (<CJK Ideograph>)
12438	0x80C9	胉 (<CJK Ideograph>)
12439	0x80CF	胏 (<CJK Ideograph>)
12440	0x80D7	胗 (<CJK Ideograph>)
12441	0x80E6	胦 (<CJK Ideograph>)
12442	0x80CD	胍 (<CJK Ideograph>)
12443	0x81FF	臿 (<CJK Ideograph>)
12444	0x8221	舡 (<CJK Ideograph>)
12445	0x8294	芔 (<CJK Ideograph>)
12446	0x82D9	苙 (<CJK Ideograph>)
12447	0x82FE	苾 (<CJK Ideograph>)
12448	0x82F9	苹 (<CJK Ideograph>)
12449	0x8307	茇 (<CJK Ideograph>)
12450	0x82E8	苨 (<CJK Ideograph>)
12451	0x8300	茀 (<CJK Ideograph>)
12452	0x82D5	苕 (<CJK Ideograph>)
12453	0x833A	茺 (<CJK Ideograph>)
12454	0x82EB	苫 (<CJK Ideograph>)
12455	0x82D6	苖 (<CJK Ideograph>)
12456	0x82F4	苴 (<CJK Ideograph>)
12457	0x82EC	苬 (<CJK Ideograph>)
12458	0x82E1	苡 (<CJK Ideograph>)
12459	0x82F2	苲 (<CJK Ideograph>)
12460	0x82F5	苵 (<CJK Ideograph>)
12461	0x830C	茌 (<CJK Ideograph>)
12462	0x82FB	苻 (<CJK Ideograph>)
12463	0x82F6	苶 (<CJK Ideograph>)
12464	0x82F0	苰 (<CJK Ideograph>)
12465	0x82EA	苪 (<CJK Ideograph>)
12466	0x82E4	苤 (<CJK Ideograph>)
12467	0x82E0	苠 (<CJK Ideograph>)
12468	0x82FA	苺 (<CJK Ideograph>)
12469	0x82F3	苳 (<CJK Ideograph>)
12470	0x82ED	苭 (<CJK Ideograph>)
12471	0x8677	虷 (<CJK Ideograph>)
12472	0x8674	虴 (<CJK Ideograph>)
12473	0x867C	虼 (<CJK Ideograph>)
12474	0x8673	虳 (<CJK Ideograph>)
12475	0x8841	衁 (<CJK Ideograph>)
12476	0x884E	衎 (<CJK Ideograph>)
12477	0x8867	衧 (<CJK Ideograph>)
12478	0x886A	衪 (<CJK Ideograph>)
12479	0x8869	衩 (<CJK Ideograph>)
12480	0x89D3	觓 (<CJK Ideograph>)
12481	0x8A04	訄 (<CJK Ideograph>)
12482	0x8A07	訇 (<CJK Ideograph>)
12483	0x8D72	赲 (<CJK Ideograph>)
12484	0x8FE3	迣 (<CJK Ideograph>)
12485	0x8FE1	迡 (<CJK Ideograph>)
12486	0x8FEE	迮 (<CJK Ideograph>)
12487	0x8FE0	迠 (<CJK Ideograph>)
12488	0x90F1	郱 (<CJK Ideograph>)
12489	0x90BD	邽 (<CJK Ideograph>)
12490	0x90BF	邿 (<CJK Ideograph>)
12491	0x90D5	郕 (<CJK Ideograph>)
12492	0x90C5	郅 (<CJK Ideograph>)
12493	0x90BE	邾 (<CJK Ideograph>)
12494	0x90C7	郇 (<CJK Ideograph>)
12495	0x90CB	郋 (<CJK Ideograph>)
12496	0x90C8	郈 (<CJK Ideograph>)
12497	0x91D4	釔 (<CJK Ideograph>)
12498	0x91D3	釓 (<CJK Ideograph>)
12499	0x9654	陔 (<CJK Ideograph>)
12500	0x964F	陏 (<CJK Ideograph>)
12501	0x9651	陑 (<CJK Ideograph>)
12502	0x9653	陓 (<CJK Ideograph>)
12503	0x964A	陊 (<CJK Ideograph>)
12504	0x964E	陎 (<CJK Ideograph>)
12505	0x501E	倞 (<CJK Ideograph>)
12506	0x5005	倅 (<CJK Ideograph>)
12507	0x5007	倇 (<CJK Ideograph>)
12508	0x5013	倓 (<CJK Ideograph>)
12509	0x5022	倢 (<CJK Ideograph>)
12510	0x5030	倰 (<CJK Ideograph>)
12511	0x501B	倛 (<CJK Ideograph>)
12512	0x4FF5	俵 (<CJK Ideograph>)
12513	0x4FF4	俴 (<CJK Ideograph>)
12514	0x5033	倳 (<CJK Ideograph>)
12515	0x5037	倷 (<CJK Ideograph>)
12516	0x502C	倬 (<CJK Ideograph>)
12517	0x4FF6	俶 (<CJK Ideograph>)
12518	0x4FF7	俷 (<CJK Ideograph>)
12519	0x5017	倗 (<CJK Ideograph>)
12520	0x501C	倜 (<CJK Ideograph>)
12521	0x5020	倠 (<CJK Ideograph>)
12522	0x5027	倧 (<CJK Ideograph>)
12523	0x5035	倵 (<CJK Ideograph>)
12524	0x502F	倯 (<CJK Ideograph>)
12525	0x5031	倱 (<CJK Ideograph>)
12526	0x500E	倎 (<CJK Ideograph>)
12527	0x515A	党 (<CJK Ideograph>)
12528	0x5194	冔 (<CJK Ideograph>)
12529	0x5193	冓 (<CJK Ideograph>)
12530	0x51CA	凊 (<CJK Ideograph>)
12531	0x51C4	凄 (<CJK Ideograph>)
12532	0x51C5	凅 (<CJK Ideograph>)
12533	0x51C8	凈 (<CJK Ideograph>)
12534	0x51CE	凎 (<CJK Ideograph>)
12535	0x5261	剡 (<CJK Ideograph>)
12536	0x525A	剚 (<CJK Ideograph>)
12537	0x5252	剒 (<CJK Ideograph>)
12538	0x525E	剞 (<CJK Ideograph>)
12539	0x525F	剟 (<CJK Ideograph>)
12540	0x5255	剕 (<CJK Ideograph>)
12541	0x5262	剢 (<CJK Ideograph>)
12542	0x52CD	勍 (<CJK Ideograph>)
12543	0x530E	匎 (<CJK Ideograph>)
12544	0x539E	厞 (<CJK Ideograph>)
12545	0x5526	唦 (<CJK Ideograph>)
12546	0x54E2	哢 (<CJK Ideograph>)
12547	0x5517	唗 (<CJK Ideograph>)
12548	0x5512	唒 (<CJK Ideograph>)
12549	0x54E7	哧 (<CJK Ideograph>)
12550	0x54F3	哳 (<CJK Ideograph>)
12551	0x54E4	哤 (<CJK Ideograph>)
12552	0x551A	唚 (<CJK Ideograph>)
12553	0x54FF	哿 (<CJK Ideograph>)
12554	0x5504	唄 (<CJK Ideograph>)
12555	0x5508	唈 (<CJK Ideograph>)
12556	0x54EB	哫 (<CJK Ideograph>)
12557	0x5511	唑 (<CJK Ideograph>)
12558	0x5505	唅 (<CJK Ideograph>)
12559	0x54F1	哱 (<CJK Ideograph>)
"#

/-- encoding_tables/whatwg/index-big5.txt:11375-11531 -/
noncomputable def index80 : List Text := lines! r#"12560	0x550A	唊 (<CJK Ideograph>)
12561	0x54FB	哻 (<CJK Ideograph>)
12562	0x54F7	哷 (<CJK Ideograph>)
12563	0x54F8	哸 (<CJK Ideograph>)
12564	0x54E0	哠 (<CJK Ideograph>)
12565	0x550E	唎 (<CJK Ideograph>)
12566	0x5503	唃 (<CJK Ideograph>)
12567	0x550B	唋 (<CJK Ideograph>)
12568	0x5701	圁 (<CJK Ideograph>)
12569	0x5702	圂 (<CJK Ideograph>)
12570	0x57CC	埌 (<CJK Ideograph>)
12571	0x5832	堲 (<CJK Ideograph>)
12572	0x57D5	埕 (<CJK Ideograph>)
12573	0x57D2	埒 (<CJK Ideograph>)
12574	0x57BA	垺 (<CJK Ideograph>)
12575	0x57C6	埆 (<CJK Ideograph>)
12576	0x57BD	垽 (<CJK Ideograph>)
12577	0x57BC	垼 (<CJK Ideograph>)
12578	0x57B8	垸 (<CJK Ideograph>)
12579	0x57B6	垶 (<CJK Ideograph>)
12580	0x57BF	垿 (<CJK Ideograph>)
12581	0x57C7	埇 (<CJK Ideograph>)
12582	0x57D0	埐 (<CJK Ideograph>)
12583	0x57B9	垹 (<CJK Ideograph>)
12584	0x57C1	埁 (<CJK Ideograph>)
12585	0x590E	夎 (<CJK Ideograph>)
12586	0x594A	奊 (<CJK Ideograph>)
12587	0x5A19	娙 (<CJK Ideograph>)
12588	0x5A16	娖 (<CJK Ideograph>)
12589	0x5A2D	娭 (<CJK Ideograph>)
12590	0x5A2E	娮 (<CJK Ideograph>)
12591	0x5A15	娕 (<CJK Ideograph>)
12592	0x5A0F	娏 (<CJK Ideograph>)
12593	0x5A17	娗 (<CJK Ideograph>)
12594	0x5A0A	娊 (<CJK Ideograph>)
12595	0x5A1E	娞 (<CJK Ideograph>)
12596	0x5A33	娳 (<CJK Ideograph>)
12597	0x5B6C	孬 (<CJK Ideograph>)
12598	0x5BA7	宧 (<CJK Ideograph>)
12599	0x5BAD	宭 (<CJK Ideograph>)
12600	0x5BAC	宬 (<CJK Ideograph>)
12601	0x5C03	尃 (<CJK Ideograph>)
12602	0x5C56	屖 (<CJK Ideograph>)
12603	0x5C54	屔 (<CJK Ideograph>)
12604	0x5CEC	峬 (<CJK Ideograph>)
12605	0x5CFF	峿 (<CJK Ideograph>)
12606	0x5CEE	峮 (<CJK Ideograph>)
12607	0x5CF1	峱 (<CJK Ideograph>)
12608	0x5CF7	峷 (<CJK Ideograph>)
12609	0x5D00	崀 (<CJK Ideograph>)
12610	0x5CF9	峹 (<CJK Ideograph>)
12611	0x5E29	帩 (<CJK Ideograph>)
12612	0x5E28	帨 (<CJK Ideograph>)
12613	0x5EA8	庨 (<CJK Ideograph>)
12614	0x5EAE	庮 (<CJK Ideograph>)
12615	0x5EAA	庪 (<CJK Ideograph>)
12616	0x5EAC	庬 (<CJK Ideograph>)
12617	0x5F33	弳 (<CJK Ideograph>)
12618	0x5F30	弰 (<CJK Ideograph>)
12619	0x5F67	彧 (<CJK Ideograph>)
12620	0x605D	恝 (<CJK Ideograph>)
12621	0x605A	恚 (<CJK Ideograph>)
12622	0x6067	恧 (<CJK Ideograph>)
12623	0x6041	恁 (<CJK Ideograph>)
12624	0x60A2	悢 (<CJK Ideograph>)
12625	0x6088	悈 (<CJK Ideograph>)
12626	0x6080	悀 (<CJK Ideograph>)
12627	0x6092	悒 (<CJK Ideograph>)
12628	0x6081	悁 (<CJK Ideograph>)
12629	0x609D	悝 (<CJK Ideograph>)
12630	0x6083	悃 (<CJK Ideograph>)
12631	0x6095	悕 (<CJK Ideograph>)
12632	0x609B	悛 (<CJK Ideograph>)
12633	0x6097	悗 (<CJK Ideograph>)
12634	0x6087	悇 (<CJK Ideograph>)
12635	0x609C	悜 (<CJK Ideograph>)
12636	0x608E	悎 (<CJK Ideograph>)
12637	0x6219	戙 (<CJK Ideograph>)
12638	0x6246	扆 (<CJK Ideograph>)
12639	0x62F2	拲 (<CJK Ideograph>)
12640	0x6310	挐 (<CJK Ideograph>)
12641	0x6356	捖 (<CJK Ideograph>)
12642	0x632C	挬 (<CJK Ideograph>)
12643	0x6344	捄 (<CJK Ideograph>)
12644	0x6345	捅 (<CJK Ideograph>)
12645	0x6336	挶 (<CJK Ideograph>)
12646	0x6343	捃 (<CJK Ideograph>)
12647	0x63E4	揤 (<CJK Ideograph>)
12648	0x6339	挹 (<CJK Ideograph>)
12649	0x634B	捋 (<CJK Ideograph>)
12650	0x634A	捊 (<CJK Ideograph>)
12651	0x633C	挼 (<CJK Ideograph>)
12652	0x6329	挩 (<CJK Ideograph>)
12653	0x6341	捁 (<CJK Ideograph>)
12654	0x6334	挴 (<CJK Ideograph>)
12655	0x6358	捘 (<CJK Ideograph>)
12656	0x6354	捔 (<CJK Ideograph>)
12657	0x6359	捙 (<CJK Ideograph>)
12658	0x632D	挭 (<CJK Ideograph>)
12659	0x6347	捇 (<CJK Ideograph>)
12660	0x6333	挳 (<CJK Ideograph>)
12661	0x635A	捚 (<CJK Ideograph>)
12662	0x6351	捑 (<CJK Ideograph>)
12663	0x6338	挸 (<CJK Ideograph>)
12664	0x6357	捗 (<CJK Ideograph>)
12665	0x6340	捀 (<CJK Ideograph>)
12666	0x6348	捈 (<CJK Ideograph>)
12667	0x654A	敊 (<CJK Ideograph>)
12668	0x6546	敆 (<CJK Ideograph>)
12669	0x65C6	旆 (<CJK Ideograph>)
12670	0x65C3	旃 (<CJK Ideograph>)
12671	0x65C4	旄 (<CJK Ideograph>)
12672	0x65C2	旂 (<CJK Ideograph>)
12673	0x664A	晊 (<CJK Ideograph>)
12674	0x665F	晟 (<CJK Ideograph>)
12675	0x6647	晇 (<CJK Ideograph>)
12676	0x6651	晑 (<CJK Ideograph>)
12677	0x6712	朒 (<CJK Ideograph>)
12678	0x6713	朓 (<CJK Ideograph>)
12679	0x681F	栟 (<CJK Ideograph>)
12680	0x681A	栚 (<CJK Ideograph>)
12681	0x6849	桉 (<CJK Ideograph>)
12682	0x6832	栲 (<CJK Ideograph>)
12683	0x6833	栳 (<CJK Ideograph>)
12684	0x683B	栻 (<CJK Ideograph>)
12685	0x684B	桋 (<CJK Ideograph>)
12686	0x684F	桏 (<CJK Ideograph>)
12687	0x6816	栖 (<CJK Ideograph>)
12688	0x6831	栱 (<CJK Ideograph>)
12689	0x681C	栜 (<CJK Ideograph>)
12690	0x6835	栵 (<CJK Ideograph>)
12691	0x682B	栫 (<CJK Ideograph>)
12692	0x682D	栭 (<CJK Ideograph>)
12693	0x682F	栯 (<CJK Ideograph>)
12694	0x684E	桎 (<CJK Ideograph>)
12695	0x6844	桄 (<CJK Ideograph>)
12696	0x6834	栴 (<CJK Ideograph>)
12697	0x681D	栝 (<CJK Ideograph>)
12698	0x6812	栒 (<CJK Ideograph>)
12699	0x6814	栔 (<CJK Ideograph>)
12700	0x6826	栦 (<CJK Ideograph>)
12701	0x6828	栨 (<CJK Ideograph>)
12702	0x682E	栮 (<CJK Ideograph>)
12703	0x684D	桍 (<CJK Ideograph>)
12704	0x683A	栺 (<CJK Ideograph>)
12705	0x6825	栥 (<CJK Ideograph>)
12706	0x6820	栠 (<CJK Ideograph>)
12707	0x6B2C	欬 (<CJK Ideograph>)
12708	0x6B2F	欯 (<CJK Ideograph>)
12709	0x6B2D	欭 (<CJK Ideograph>)
12710	0x6B31	欱 (<CJK Ideograph>)
12711	0x6B34	欴 (<CJK Ideograph>)
12712	0x6B6D	歭 (<CJK Ideograph>)
12713	0x8082	肂 (<CJK Ideograph>)
12714	0x6B88	殈 (<CJK Ideograph>)
12715	0x6BE6	毦 (<CJK Ideograph>)
12716	0x6BE4	毤 (<CJK Ideograph>)
"#

/-- encoding_tables/whatwg/index-big5.txt:11532-11688 -/
noncomputable def index81 : List Text := lines! r#"12717	0x6BE8	毨 (<CJK Ideograph>)
12718	0x6BE3	毣 (<CJK Ideograph>)
12719	0x6BE2	毢 (<CJK Ideograph>)
12720	0x6BE7	毧 (<CJK Ideograph>)
12721	0x6C25	氥 (<CJK Ideograph>)
12722	0x6D7A	浺 (<CJK Ideograph>)
12723	0x6D63	浣 (<CJK Ideograph>)
12724	0x6D64	浤 (<CJK Ideograph>)
12725	0x6D76	浶 (<CJK Ideograph>)
12726	0x6D0D	洍 (<CJK Ideograph>)
12727	0x6D61	浡 (<CJK Ideograph>)
12728	0x6D92	涒 (<CJK Ideograph>)
12729	0x6D58	浘 (<CJK Ideograph>)
12730	0x6D62	浢 (<CJK Ideograph>)
12731	0x6D6D	浭 (<CJK Ideograph>)
12732	0x6D6F	浯 (<CJK Ideograph>)
12733	0x6D91	涑 (<CJK Ideograph>)
12734	0x6D8D	涍 (<CJK Ideograph>)
12735	0x6DEF	淯 (<CJK Ideograph>)
12736	0x6D7F	浿 (<CJK Ideograph>)
12737	0x6D86	涆 (<CJK Ideograph>)
12738	0x6D5E	浞 (<CJK Ideograph>)
12739	0x6D67	浧 (<CJK Ideograph>)
12740	0x6D60	浠 (<CJK Ideograph>)
12741	0x6D97	涗 (<CJK Ideograph>)
12742	0x6D70	浰 (<CJK Ideograph>)
12743	0x6D7C	浼 (<CJK Ideograph>)
12744	0x6D5F	浟 (<CJK Ideograph>)
12745	0x6D82	涂 (<CJK Ideograph>)
12746	0x6D98	涘 (<CJK Ideograph>)
12747	0x6D2F	洯 (<CJK Ideograph>)
12748	0x6D68	浨 (<CJK Ideograph>)
12749	0x6D8B	涋 (<CJK Ideograph>)
12750	0x6D7E	浾 (<CJK Ideograph>)
12751	0x6D80	涀 (<CJK Ideograph>)
12752	0x6D84	涄 (<CJK Ideograph>)
12753	0x6D16	洖 (<CJK Ideograph>)
12754	0x6D83	涃 (<CJK Ideograph>)
12755	0x6D7B	浻 (<CJK Ideograph>)
12756	0x6D7D	浽 (<CJK Ideograph>)
12757	0x6D75	浵 (<CJK Ideograph>)
12758	0x6D90	涐 (<CJK Ideograph>)
12759	0x70DC	烜 (<CJK Ideograph>)
12760	0x70D3	烓 (<CJK Ideograph>)
12761	0x70D1	烑 (<CJK Ideograph>)
12762	0x70DD	烝 (<CJK Ideograph>)
12763	0x70CB	烋 (<CJK Ideograph>)
12764	0x7F39	缹 (<CJK Ideograph>)
12765	0x70E2	烢 (<CJK Ideograph>)
12766	0x70D7	烗 (<CJK Ideograph>)
12767	0x70D2	烒 (<CJK Ideograph>)
12768	0x70DE	烞 (<CJK Ideograph>)
12769	0x70E0	烠 (<CJK Ideograph>)
12770	0x70D4	烔 (<CJK Ideograph>)
12771	0x70CD	烍 (<CJK Ideograph>)
12772	0x70C5	烅 (<CJK Ideograph>)
12773	0x70C6	烆 (<CJK Ideograph>)
12774	0x70C7	烇 (<CJK Ideograph>)
12775	0x70DA	烚 (<CJK Ideograph>)
12776	0x70CE	烎 (<CJK Ideograph>)
12777	0x70E1	烡 (<CJK Ideograph>)
12778	0x7242	牂 (<CJK Ideograph>)
12779	0x7278	牸 (<CJK Ideograph>)
12780	0x7277	牷 (<CJK Ideograph>)
12781	0x7276	牶 (<CJK Ideograph>)
12782	0x7300	猀 (<CJK Ideograph>)
12783	0x72FA	狺 (<CJK Ideograph>)
12784	0x72F4	狴 (<CJK Ideograph>)
12785	0x72FE	狾 (<CJK Ideograph>)
12786	0x72F6	狶 (<CJK Ideograph>)
12787	0x72F3	狳 (<CJK Ideograph>)
12788	0x72FB	狻 (<CJK Ideograph>)
12789	0x7301	猁 (<CJK Ideograph>)
12790	0x73D3	珓 (<CJK Ideograph>)
12791	0x73D9	珙 (<CJK Ideograph>)
12792	0x73E5	珥 (<CJK Ideograph>)
12793	0x73D6	珖 (<CJK Ideograph>)
12794	0x73BC	玼 (<CJK Ideograph>)
12795	0x73E7	珧 (<CJK Ideograph>)
12796	0x73E3	珣 (<CJK Ideograph>)
12797	0x73E9	珩 (<CJK Ideograph>)
12798	0x73DC	珜 (<CJK Ideograph>)
12799	0x73D2	珒 (<CJK Ideograph>)
12800	0x73DB	珛 (<CJK Ideograph>)
12801	0x73D4	珔 (<CJK Ideograph>)
12802	0x73DD	珝 (<CJK Ideograph>)
12803	0x73DA	珚 (<CJK Ideograph>)
12804	0x73D7	珗 (<CJK Ideograph>)
12805	0x73D8	珘 (<CJK Ideograph>)
12806	0x73E8	珨 (<CJK Ideograph>)
12807	0x74DE	瓞 (<CJK Ideograph>)
12808	0x74DF	瓟 (<CJK Ideograph>)
12809	0x74F4	瓴 (<CJK Ideograph>)
12810	0x74F5	瓵 (<CJK Ideograph>)
12811	0x7521	甡 (<CJK Ideograph>)
12812	0x755B	畛 (<CJK Ideograph>)
12813	0x755F	畟 (<CJK Ideograph>)
12814	0x75B0	疰 (<CJK Ideograph>)
12815	0x75C1	痁 (<CJK Ideograph>)
12816	0x75BB	疻 (<CJK Ideograph>)
12817	0x75C4	痄 (<CJK Ideograph>)
12818	0x75C0	痀 (<CJK Ideograph>)
12819	0x75BF	疿 (<CJK Ideograph>)
12820	0x75B6	疶 (<CJK Ideograph>)
12821	0x75BA	疺 (<CJK Ideograph>)
12822	0x768A	皊 (<CJK Ideograph>)
12823	0x76C9	盉 (<CJK Ideograph>)
12824	0x771D	眝 (<CJK Ideograph>)
12825	0x771B	眛 (<CJK Ideograph>)
12826	0x7710	眐 (<CJK Ideograph>)
12827	0x7713	眓 (<CJK Ideograph>)
12828	0x7712	眒 (<CJK Ideograph>)
12829	0x7723	眣 (<CJK Ideograph>)
12830	0x7711	眑 (<CJK Ideograph>)
12831	0x7715	眕 (<CJK Ideograph>)
12832	0x7719	眙 (<CJK Ideograph>)
12833	0x771A	眚 (<CJK Ideograph>)
12834	0x7722	眢 (<CJK Ideograph>)
12835	0x7727	眧 (<CJK Ideograph>)
12836	0x7823	砣 (<CJK Ideograph>)
12837	0x782C	砬 (<CJK Ideograph>)
12838	0x7822	砢 (<CJK Ideograph>)
12839	0x7835	砵 (<CJK Ideograph>)
12840	0x782F	砯 (<CJK Ideograph>)
12841	0x7828	砨 (<CJK Ideograph>)
12842	0x782E	砮 (<CJK Ideograph>)
12843	0x782B	砫 (<CJK Ideograph>)
12844	0x7821	砡 (<CJK Ideograph>)
12845	0x7829	砩 (<CJK Ideograph>)
12846	0x7833	砳 (<CJK Ideograph>)
12847	0x782A	砪 (<CJK Ideograph>)
12848	0x7831	砱 (<CJK Ideograph>)
12849	0x7954	祔 (<CJK Ideograph>)
12850	0x795B	祛 (<CJK Ideograph>)
12851	0x794F	祏 (<CJK Ideograph>)
12852	0x795C	祜 (<CJK Ideograph>)
12853	0x7953	祓 (<CJK Ideograph>)
12854	0x7952	祒 (<CJK Ideograph>)
12855	0x7951	祑 (<CJK Ideograph>)
12856	0x79EB	秫 (<CJK Ideograph>)
12857	0x79EC	秬 (<CJK Ideograph>)
12858	0x79E0	秠 (<CJK Ideograph>)
12859	0x79EE	秮 (<CJK Ideograph>)
12860	0x79ED	秭 (<CJK Ideograph>)
12861	0x79EA	秪 (<CJK Ideograph>)
12862	0x79DC	秜 (<CJK Ideograph>)
12863	0x79DE	秞 (<CJK Ideograph>)
12864	0x79DD	秝 (<CJK Ideograph>)
12865	0x7A86	窆 (<CJK Ideograph>)
12866	0x7A89	窉 (<CJK Ideograph>)
12867	0x7A85	窅 (<CJK Ideograph>)
12868	0x7A8B	窋 (<CJK Ideograph>)
12869	0x7A8C	窌 (<CJK Ideograph>)
12870	0x7A8A	窊 (<CJK Ideograph>)
12871	0x7A87	窇 (<CJK Ideograph>)
12872	0x7AD8	竘 (<CJK Ideograph>)
12873	0x7B10	笐 (<CJK Ideograph>)
"#

/-- encoding_tables/whatwg/index-big5.txt:11689-11845 -/
noncomputable def index82 : List Text := lines! r#"12874	0x7B04	笄 (<CJK Ideograph>)
12875	0x7B13	笓 (<CJK Ideograph>)
12876	0x7B05	笅 (<CJK Ideograph>)
12877	0x7B0F	笏 (<CJK Ideograph>)
12878	0x7B08	笈 (<CJK Ideograph>)
12879	0x7B0A	笊 (<CJK Ideograph>)
12880	0x7B0E	笎 (<CJK Ideograph>)
12881	0x7B09	笉 (<CJK Ideograph>)
12882	0x7B12	笒 (<CJK Ideograph>)
12883	0x7C84	粄 (<CJK Ideograph>)
12884	0x7C91	粑 (<CJK Ideograph>)
12885	0x7C8A	粊 (<CJK Ideograph>)
12886	0x7C8C	粌 (<CJK Ideograph>)
12887	0x7C88	粈 (<CJK Ideograph>)
12888	0x7C8D	粍 (<CJK Ideograph>)
12889	0x7C85	粅 (<CJK Ideograph>)
12890	0x7D1E	紞 (<CJK Ideograph>)
12891	0x7D1D	紝 (<CJK Ideograph>)
12892	0x7D11	紑 (<CJK Ideograph>)
12893	0x7D0E	紎 (<CJK Ideograph>)
12894	0x7D18	紘 (<CJK Ideograph>)
12895	0x7D16	紖 (<CJK Ideograph>)
12896	0x7D13	紓 (<CJK Ideograph>)
12897	0x7D1F	紟 (<CJK Ideograph>)
12898	0x7D12	紒 (<CJK Ideograph>)
12899	0x7D0F	紏 (<CJK Ideograph>)
12900	0x7D0C	紌 (<CJK Ideograph>)
12901	0x7F5C	罜 (<CJK Ideograph>)
12902	0x7F61	罡 (<CJK Ideograph>)
12903	0x7F5E	罞 (<CJK Ideograph>)
12904	0x7F60	罠 (<CJK Ideograph>)
12905	0x7F5D	罝 (<CJK Ideograph>)
12906	0x7F5B	罛 (<CJK Ideograph>)
12907	0x7F96	羖 (<CJK Ideograph>)
12908	0x7F92	羒 (<CJK Ideograph>)
12909	0x7FC3	翃 (<CJK Ideograph>)
12910	0x7FC2	翂 (<CJK Ideograph>)
12911	0x7FC0	翀 (<CJK Ideograph>)
12912	0x8016	耖 (<CJK Ideograph>)
12913	0x803E	耾 (<CJK Ideograph>)
12914	0x8039	耹 (<CJK Ideograph>)
12915	0x80FA	胺 (<CJK Ideograph>)
12916	0x80F2	胲 (<CJK Ideograph>)
12917	0x80F9	胹 (<CJK Ideograph>)
12918	0x80F5	胵 (<CJK Ideograph>)
12919	0x8101	脁 (<CJK Ideograph>)
12920	0x80FB	胻 (<CJK Ideograph>)
12921	0x8100	脀 (<CJK Ideograph>)
12922	0x8201	舁 (<CJK Ideograph>)
12923	0x822F	舯 (<CJK Ideograph>)
12924	0x8225	舥 (<CJK Ideograph>)
12925	0x8333	茳 (<CJK Ideograph>)
12926	0x832D	茭 (<CJK Ideograph>)
12927	0x8344	荄 (<CJK Ideograph>)
12928	0x8319	茙 (<CJK Ideograph>)
12929	0x8351	荑 (<CJK Ideograph>)
12930	0x8325	茥 (<CJK Ideograph>)
12931	0x8356	荖 (<CJK Ideograph>)
12932	0x833F	茿 (<CJK Ideograph>)
12933	0x8341	荁 (<CJK Ideograph>)
12934	0x8326	茦 (<CJK Ideograph>)
12935	0x831C	茜 (<CJK Ideograph>)
12936	0x8322	茢 (<CJK Ideograph>)
12937	0x8342	荂 (<CJK Ideograph>)
12938	0x834E	荎 (<CJK Ideograph>)
12939	0x831B	茛 (<CJK Ideograph>)
12940	0x832A	茪 (<CJK Ideograph>)
12941	0x8308	茈 (<CJK Ideograph>)
12942	0x833C	茼 (<CJK Ideograph>)
12943	0x834D	荍 (<CJK Ideograph>)
12944	0x8316	茖 (<CJK Ideograph>)
12945	0x8324	茤 (<CJK Ideograph>)
12946	0x8320	茠 (<CJK Ideograph>)
12947	0x8337	茷 (<CJK Ideograph>)
12948	0x832F	茯 (<CJK Ideograph>)
12949	0x8329	茩 (<CJK Ideograph>)
12950	0x8347	荇 (<CJK Ideograph>)
12951	0x8345	荅 (<CJK Ideograph>)
12952	0x834C	荌 (<CJK Ideograph>)
12953	0x8353	荓 (<CJK Ideograph>)
12954	0x831E	茞 (<CJK Ideograph>)
12955	0x832C	茬 (<CJK Ideograph>)
12956	0x834B	荋 (<CJK Ideograph>)
12957	0x8327	茧 (<CJK Ideograph>)
12958	0x8348	荈 (<CJK Ideograph>)
12959	0x8653	虓 (<CJK Ideograph>)
12960	0x8652	虒 (<CJK Ideograph>)
12961	0x86A2	蚢 (<CJK Ideograph>)
12962	0x86A8	蚨 (<CJK Ideograph>)
12963	0x8696	蚖 (<CJK Ideograph>)
12964	0x868D	蚍 (<CJK Ideograph>)
12965	0x8691	蚑 (<CJK Ideograph>)
12966	0x869E	蚞 (<CJK Ideograph>)
12967	0x8687	蚇 (<CJK Ideograph>)
12968	0x8697	蚗 (<CJK Ideograph>)
12969	0x8686	蚆 (<CJK Ideograph>)
12970	0x868B	蚋 (<CJK Ideograph>)
12971	0x869A	蚚 (<CJK Ideograph>)
12972	0x8685	蚅 (<CJK Ideograph>)
12973	0x86A5	蚥 (<CJK Ideograph>)
12974	0x8699	蚙 (<CJK Ideograph>)
12975	0x86A1	蚡 (<CJK Ideograph>)
12976	0x86A7	蚧 (<CJK Ideograph>)
12977	0x8695	蚕 (<CJK Ideograph>)
12978	0x8698	蚘 (<CJK Ideograph>)
12979	0x868E	蚎 (<CJK Ideograph>)
12980	0x869D	蚝 (<CJK Ideograph>)
12981	0x8690	蚐 (<CJK Ideograph>)
12982	0x8694	蚔 (<CJK Ideograph>)
12983	0x8843	衃 (<CJK Ideograph>)
12984	0x8844	衄 (<CJK Ideograph>)
12985	0x886D	衭 (<CJK Ideograph>)
12986	0x8875	衵 (<CJK Ideograph>)
12987	0x8876	衶 (<CJK Ideograph>)
12988	0x8872	衲 (<CJK Ideograph>)
12989	0x8880	袀 (<CJK Ideograph>)
12990	0x8871	衱 (<CJK Ideograph>)
12991	0x887F	衿 (<CJK Ideograph>)
12992	0x886F	衯 (<CJK Ideograph>)
12993	0x8883	袃 (<CJK Ideograph>)
12994	0x887E	衾 (<CJK Ideograph>)
12995	0x8874	衴 (<CJK Ideograph>)
12996	0x887C	衼 (<CJK Ideograph>)
12997	0x8A12	訒 (<CJK Ideograph>)
12998	0x8C47	豇 (<CJK Ideograph>)
12999	0x8C57	豗 (<CJK Ideograph>)
13000	0x8C7B	豻 (<CJK Ideograph>)
13001	0x8CA4	貤 (<CJK Ideograph>)
13002	0x8CA3	貣 (<CJK Ideograph>)
13003	0x8D76	赶 (<CJK Ideograph>)
13004	0x8D78	赸 (<CJK Ideograph>)
13005	0x8DB5	趵 (<CJK Ideograph>)
13006	0x8DB7	趷 (<CJK Ideograph>)
13007	0x8DB6	趶 (<CJK Ideograph>)
13008	0x8ED1	軑 (<CJK Ideograph>)
13009	0x8ED3	軓 (<CJK Ideograph>)
13010	0x8FFE	迾 (<CJK Ideograph>)
13011	0x8FF5	迵 (<CJK Ideograph>)
13012	0x9002	适 (<CJK Ideograph>)
13013	0x8FFF	迿 (<CJK Ideograph>)
13014	0x8FFB	迻 (<CJK Ideograph>)
13015	0x9004	逄 (<CJK Ideograph>)
13016	0x8FFC	迼 (<CJK Ideograph>)
13017	0x8FF6	迶 (<CJK Ideograph>)
13018	0x90D6	郖 (<CJK Ideograph>)
13019	0x90E0	郠 (<CJK Ideograph>)
13020	0x90D9	郙 (<CJK Ideograph>)
13021	0x90DA	郚 (<CJK Ideograph>)
13022	0x90E3	郣 (<CJK Ideograph>)
13023	0x90DF	郟 (<CJK Ideograph>)
13024	0x90E5	郥 (<CJK Ideograph>)
13025	0x90D8	郘 (<CJK Ideograph>)
13026	0x90DB	郛 (<CJK Ideograph>)
13027	0x90D7	郗 (<CJK Ideograph>)
13028	0x90DC	郜 (<CJK Ideograph>)
13029	0x90E4	郤 (<CJK Ideograph>)
13030	0x9150	酐 (<CJK Ideograph>)
"#

/-- encoding_tables/whatwg/index-big5.txt:11846-12002 -/
noncomputable def index83 : List Text := lines! r#"13031	0x914E	酎 (<CJK Ideograph>)
13032	0x914F	酏 (<CJK Ideograph>)
13033	0x91D5	釕 (<CJK Ideograph>)
13034	0x91E2	釢 (<CJK Ideograph>)
13035	0x91DA	釚 (<CJK Ideograph>)
13036	0x965C	陜 (<CJK Ideograph>)
13037	0x965F	陟 (<CJK Ideograph>)
13038	0x96BC	隼 (<CJK Ideograph>)
13039	0x98E3	飣 (<CJK Ideograph>)
13040	0x9ADF	髟 (<CJK Ideograph>)
13041	0x9B2F	鬯 (<CJK Ideograph>)
13042	0x4E7F	乿 (<CJK Ideograph>)
13043	0x5070	偰 (<CJK Ideograph>)
13044	0x506A	偪 (<CJK Ideograph>)
13045	0x5061	偡 (<CJK Ideograph>)
13046	0x505E	偞 (<CJK Ideograph>)
13047	0x5060	偠 (<CJK Ideograph>)
13048	0x5053	偓 (<CJK Ideograph>)
13049	0x504B	偋 (<CJK Ideograph>)
13050	0x505D	偝 (<CJK Ideograph>)
13051	0x5072	偲 (<CJK Ideograph>)
13052	0x5048	偈 (<CJK Ideograph>)
13053	0x504D	偍 (<CJK Ideograph>)
13054	0x5041	偁 (<CJK Ideograph>)
13055	0x505B	偛 (<CJK Ideograph>)
13056	0x504A	偊 (<CJK Ideograph>)
13057	0x5062	偢 (<CJK Ideograph>)
13058	0x5015	倕 (<CJK Ideograph>)
13059	0x5045	偅 (<CJK Ideograph>)
13060	0x505F	偟 (<CJK Ideograph>)
13061	0x5069	偩 (<CJK Ideograph>)
13062	0x506B	偫 (<CJK Ideograph>)
13063	0x5063	偣 (<CJK Ideograph>)
13064	0x5064	偤 (<CJK Ideograph>)
13065	0x5046	偆 (<CJK Ideograph>)
13066	0x5040	偀 (<CJK Ideograph>)
13067	0x506E	偮 (<CJK Ideograph>)
13068	0x5073	偳 (<CJK Ideograph>)
13069	0x5057	偗 (<CJK Ideograph>)
13070	0x5051	偑 (<CJK Ideograph>)
13071	0x51D0	凐 (<CJK Ideograph>)
13072	0x526B	剫 (<CJK Ideograph>)
13073	0x526D	剭 (<CJK Ideograph>)
13074	0x526C	剬 (<CJK Ideograph>)
13075	0x526E	剮 (<CJK Ideograph>)
13076	0x52D6	勖 (<CJK Ideograph>)
13077	0x52D3	勓 (<CJK Ideograph>)
13078	0x532D	匭 (<CJK Ideograph>)
13079	0x539C	厜 (<CJK Ideograph>)
13080	0x5575	啵 (<CJK Ideograph>)
13081	0x5576	啶 (<CJK Ideograph>)
13082	0x553C	唼 (<CJK Ideograph>)
13083	0x554D	啍 (<CJK Ideograph>)
13084	0x5550	啐 (<CJK Ideograph>)
13085	0x5534	唴 (<CJK Ideograph>)
13086	0x552A	唪 (<CJK Ideograph>)
13087	0x5551	啑 (<CJK Ideograph>)
13088	0x5562	啢 (<CJK Ideograph>)
13089	0x5536	唶 (<CJK Ideograph>)
13090	0x5535	唵 (<CJK Ideograph>)
13091	0x5530	唰 (<CJK Ideograph>)
13092	0x5552	啒 (<CJK Ideograph>)
13093	0x5545	啅 (<CJK Ideograph>)
13094	0x550C	唌 (<CJK Ideograph>)
13095	0x5532	唲 (<CJK Ideograph>)
13096	0x5565	啥 (<CJK Ideograph>)
13097	0x554E	啎 (<CJK Ideograph>)
13098	0x5539	唹 (<CJK Ideograph>)
13099	0x5548	啈 (<CJK Ideograph>)
13100	0x552D	唭 (<CJK Ideograph>)
13101	0x553B	唻 (<CJK Ideograph>)
13102	0x5540	啀 (<CJK Ideograph>)
13103	0x554B	啋 (<CJK Ideograph>)
13104	0x570A	圊 (<CJK Ideograph>)
13105	0x5707	圇 (<CJK Ideograph>)
13106	0x57FB	埻 (<CJK Ideograph>)
13107	0x5814	堔 (<CJK Ideograph>)
13108	0x57E2	埢 (<CJK Ideograph>)
13109	0x57F6	埶 (<CJK Ideograph>)
13110	0x57DC	埜 (<CJK Ideograph>)
13111	0x57F4	埴 (<CJK Ideograph>)
13112	0x5800	堀 (<CJK Ideograph>)
13113	0x57ED	埭 (<CJK Ideograph>)
13114	0x57FD	埽 (<CJK Ideograph>)
13115	0x5808	堈 (<CJK Ideograph>)
13116	0x57F8	埸 (<CJK Ideograph>)
13117	0x580B	堋 (<CJK Ideograph>)
13118	0x57F3	埳 (<CJK Ideograph>)
13119	0x57CF	埏 (<CJK Ideograph>)
13120	0x5807	堇 (<CJK Ideograph>)
13121	0x57EE	埮 (<CJK Ideograph>)
13122	0x57E3	埣 (<CJK Ideograph>)
13123	0x57F2	埲 (<CJK Ideograph>)
13124	0x57E5	埥 (<CJK Ideograph>)
13125	0x57EC	埬 (<CJK Ideograph>)
13126	0x57E1	埡 (<CJK Ideograph>)
13127	0x580E	堎 (<CJK Ideograph>)
13128	0x57FC	埼 (<CJK Ideograph>)
13129	0x5810	堐 (<CJK Ideograph>)
13130	0x57E7	埧 (<CJK Ideograph>)
13131	0x5801	堁 (<CJK Ideograph>)
13132	0x580C	堌 (<CJK Ideograph>)
13133	0x57F1	埱 (<CJK Ideograph>)
13134	0x57E9	埩 (<CJK Ideograph>)
13135	0x57F0	埰 (<CJK Ideograph>)
13136	0x580D	堍 (<CJK Ideograph>)
13137	0x5804	堄 (<CJK Ideograph>)
13138	0x595C	奜 (<CJK Ideograph>)
13139	0x5A60	婠 (<CJK Ideograph>)
13140	0x5A58	婘 (<CJK Ideograph>)
13141	0x5A55	婕 (<CJK Ideograph>)
13142	0x5A67	婧 (<CJK Ideograph>)
13143	0x5A5E	婞 (<CJK Ideograph>)
13144	0x5A38	娸 (<CJK Ideograph>)
13145	0x5A35	娵 (<CJK Ideograph>)
13146	0x5A6D	婭 (<CJK Ideograph>)
13147	0x5A50	婐 (<CJK Ideograph>)
13148	0x5A5F	婟 (<CJK Ideograph>)
13149	0x5A65	婥 (<CJK Ideograph>)
13150	0x5A6C	婬 (<CJK Ideograph>)
13151	0x5A53	婓 (<CJK Ideograph>)
13152	0x5A64	婤 (<CJK Ideograph>)
13153	0x5A57	婗 (<CJK Ideograph>)
13154	0x5A43	婃 (<CJK Ideograph>)
13155	0x5A5D	婝 (<CJK Ideograph>)
13156	0x5A52	婒 (<CJK Ideograph>)
13157	0x5A44	婄 (<CJK Ideograph>)
13158	0x5A5B	婛 (<CJK Ideograph>)
13159	0x5A48	婈 (<CJK Ideograph>)
13160	0x5A8E	媎 (<CJK Ideograph>)
13161	0x5A3E	娾 (<CJK Ideograph>)
13162	0x5A4D	婍 (<CJK Ideograph>)
13163	0x5A39	娹 (<CJK Ideograph>)
13164	0x5A4C	婌 (<CJK Ideograph>)
13165	0x5A70	婰 (<CJK Ideograph>)
13166	0x5A69	婩 (<CJK Ideograph>)
13167	0x5A47	婇 (<CJK Ideograph>)
13168	0x5A51	婑 (<CJK Ideograph>)
13169	0x5A56	婖 (<CJK Ideograph>)
13170	0x5A42	婂 (<CJK Ideograph>)
13171	0x5A5C	婜 (<CJK Ideograph>)
13172	0x5B72	孲 (<CJK Ideograph>)
13173	0x5B6E	孮 (<CJK Ideograph>)
13174	0x5BC1	寁 (<CJK Ideograph>)
13175	0x5BC0	寀 (<CJK Ideograph>)
13176	0x5C59	屙 (<CJK Ideograph>)
13177	0x5D1E	崞 (<CJK Ideograph>)
13178	0x5D0B	崋 (<CJK Ideograph>)
13179	0x5D1D	崝 (<CJK Ideograph>)
13180	0x5D1A	崚 (<CJK Ideograph>)
13181	0x5D20	崠 (<CJK Ideograph>)
13182	0x5D0C	崌 (<CJK Ideograph>)
13183	0x5D28	崨 (<CJK Ideograph>)
13184	0x5D0D	崍 (<CJK Ideograph>)
13185	0x5D26	崦 (<CJK Ideograph>)
13186	0x5D25	崥 (<CJK Ideograph>)
13187	0x5D0F	崏 (<CJK Ideograph>)
"#

/-- encoding_tables/whatwg/index-big5.txt:12003-12159 -/
noncomputable def index84 : List Text := lines! r#"13188	0x5D30	崰 (<CJK Ideograph>)
13189	0x5D12	崒 (<CJK Ideograph>)
13190	0x5D23	崣 (<CJK Ideograph>)
13191	0x5D1F	崟 (<CJK Ideograph>)
13192	0x5D2E	崮 (<CJK Ideograph>)
13193	0x5E3E	帾 (<CJK Ideograph>)
13194	0x5E34	帴 (<CJK Ideograph>)
13195	0x5EB1	庱 (<CJK Ideograph>)
13196	0x5EB4	庴 (<CJK Ideograph>)
13197	0x5EB9	庹 (<CJK Ideograph>)
13198	0x5EB2	庲 (<CJK Ideograph>)
13199	0x5EB3	庳 (<CJK Ideograph>)
13200	0x5F36	弶 (<CJK Ideograph>)
13201	0x5F38	弸 (<CJK Ideograph>)
13202	0x5F9B	徛 (<CJK Ideograph>)
13203	0x5F96	徖 (<CJK Ideograph>)
13204	0x5F9F	徟 (<CJK Ideograph>)
13205	0x608A	悊 (<CJK Ideograph>)
13206	0x6090	悐 (<CJK Ideograph>)
13207	0x6086	悆 (<CJK Ideograph>)
13208	0x60BE	悾 (<CJK Ideograph>)
13209	0x60B0	悰 (<CJK Ideograph>)
13210	0x60BA	悺 (<CJK Ideograph>)
13211	0x60D3	惓 (<CJK Ideograph>)
13212	0x60D4	惔 (<CJK Ideograph>)
13213	0x60CF	惏 (<CJK Ideograph>)
13214	0x60E4	惤 (<CJK Ideograph>)
13215	0x60D9	惙 (<CJK Ideograph>)
13216	0x60DD	惝 (<CJK Ideograph>)
13217	0x60C8	惈 (<CJK Ideograph>)
13218	0x60B1	悱 (<CJK Ideograph>)
13219	0x60DB	惛 (<CJK Ideograph>)
13220	0x60B7	悷 (<CJK Ideograph>)
13221	0x60CA	惊 (<CJK Ideograph>)
13222	0x60BF	悿 (<CJK Ideograph>)
13223	0x60C3	惃 (<CJK Ideograph>)
13224	0x60CD	惍 (<CJK Ideograph>)
13225	0x60C0	惀 (<CJK Ideograph>)
13226	0x6332	挲 (<CJK Ideograph>)
13227	0x6365	捥 (<CJK Ideograph>)
13228	0x638A	掊 (<CJK Ideograph>)
13229	0x6382	掂 (<CJK Ideograph>)
13230	0x637D	捽 (<CJK Ideograph>)
13231	0x63BD	掽 (<CJK Ideograph>)
13232	0x639E	掞 (<CJK Ideograph>)
13233	0x63AD	掭 (<CJK Ideograph>)
13234	0x639D	掝 (<CJK Ideograph>)
13235	0x6397	掗 (<CJK Ideograph>)
13236	0x63AB	掫 (<CJK Ideograph>)
13237	0x638E	掎 (<CJK Ideograph>)
13238	0x636F	捯 (<CJK Ideograph>)
13239	0x6387	掇 (<CJK Ideograph>)
13240	0x6390	掐 (<CJK Ideograph>)
13241	0x636E	据 (<CJK Ideograph>)
13242	0x63AF	掯 (<CJK Ideograph>)
13243	0x6375	捵 (<CJK Ideograph>)
13244	0x639C	掜 (<CJK Ideograph>)
13245	0x636D	捭 (<CJK Ideograph>)
13246	0x63AE	掮 (<CJK Ideograph>)
13247	0x637C	捼 (<CJK Ideograph>)
13248	0x63A4	掤 (<CJK Ideograph>)
13249	0x633B	挻 (<CJK Ideograph>)
13250	0x639F	掟 (<CJK Ideograph>)
13251	0x6378	捸 (<CJK Ideograph>)
13252	0x6385	掅 (<CJK Ideograph>)
13253	0x6381	掁 (<CJK Ideograph>)
13254	0x6391	掑 (<CJK Ideograph>)
13255	0x638D	掍 (<CJK Ideograph>)
13256	0x6370	捰 (<CJK Ideograph>)
13257	0x6553	敓 (<CJK Ideograph>)
13258	0x65CD	旍 (<CJK Ideograph>)
13259	0x6665	晥 (<CJK Ideograph>)
13260	0x6661	晡 (<CJK Ideograph>)
13261	0x665B	晛 (<CJK Ideograph>)
13262	0x6659	晙 (<CJK Ideograph>)
13263	0x665C	晜 (<CJK Ideograph>)
13264	0x6662	晢 (<CJK Ideograph>)
13265	0x6718	朘 (<CJK Ideograph>)
13266	0x6879	桹 (<CJK Ideograph>)
13267	0x6887	梇 (<CJK Ideograph>)
13268	0x6890	梐 (<CJK Ideograph>)
13269	0x689C	梜 (<CJK Ideograph>)
13270	0x686D	桭 (<CJK Ideograph>)
13271	0x686E	桮 (<CJK Ideograph>)
13272	0x68AE	梮 (<CJK Ideograph>)
13273	0x68AB	梫 (<CJK Ideograph>)
13274	0x6956	楖 (<CJK Ideograph>)
13275	0x686F	桯 (<CJK Ideograph>)
13276	0x68A3	梣 (<CJK Ideograph>)
13277	0x68AC	梬 (<CJK Ideograph>)
13278	0x68A9	梩 (<CJK Ideograph>)
13279	0x6875	桵 (<CJK Ideograph>)
13280	0x6874	桴 (<CJK Ideograph>)
13281	0x68B2	梲 (<CJK Ideograph>)
13282	0x688F	梏 (<CJK Ideograph>)
13283	0x6877	桷 (<CJK Ideograph>)
13284	0x6892	梒 (<CJK Ideograph>)
13285	0x687C	桼 (<CJK Ideograph>)
13286	0x686B	桫 (<CJK Ideograph>)
13287	0x6872	桲 (<CJK Ideograph>)
13288	0x68AA	梪 (<CJK Ideograph>)
13289	0x6880	梀 (<CJK Ideograph>)
13290	0x6871	桱 (<CJK Ideograph>)
13291	0x687E	桾 (<CJK Ideograph>)
13292	0x689B	梛 (<CJK Ideograph>)
13293	0x6896	梖 (<CJK Ideograph>)
13294	0x688B	梋 (<CJK Ideograph>)
13295	0x68A0	梠 (<CJK Ideograph>)
13296	0x6889	梉 (<CJK Ideograph>)
13297	0x68A4	梤 (<CJK Ideograph>)
13298	0x6878	桸 (<CJK Ideograph>)
13299	0x687B	桻 (<CJK Ideograph>)
13300	0x6891	梑 (<CJK Ideograph>)
13301	0x688C	梌 (<CJK Ideograph>)
13302	0x688A	梊 (<CJK Ideograph>)
13303	0x687D	桽 (<CJK Ideograph>)
13304	0x6B36	欶 (<CJK Ideograph>)
13305	0x6B33	欳 (<CJK Ideograph>)
13306	0x6B37	欷 (<CJK Ideograph>)
13307	0x6B38	欸 (<CJK Ideograph>)
13308	0x6B91	殑 (<CJK Ideograph>)
13309	0x6B8F	殏 (<CJK Ideograph>)
13310	0x6B8D	殍 (<CJK Ideograph>)
13311	0x6B8E	殎 (<CJK Ideograph>)
13312	0x6B8C	殌 (<CJK Ideograph>)
13313	0x6C2A	氪 (<CJK Ideograph>)
13314	0x6DC0	淀 (<CJK Ideograph>)
13315	0x6DAB	涫 (<CJK Ideograph>)
13316	0x6DB4	涴 (<CJK Ideograph>)
13317	0x6DB3	涳 (<CJK Ideograph>)
13318	0x6E74	湴 (<CJK Ideograph>)
13319	0x6DAC	涬 (<CJK Ideograph>)
13320	0x6DE9	淩 (<CJK Ideograph>)
13321	0x6DE2	淢 (<CJK Ideograph>)
13322	0x6DB7	涷 (<CJK Ideograph>)
13323	0x6DF6	淶 (<CJK Ideograph>)
13324	0x6DD4	淔 (<CJK Ideograph>)
13325	0x6E00	渀 (<CJK Ideograph>)
13326	0x6DC8	淈 (<CJK Ideograph>)
13327	0x6DE0	淠 (<CJK Ideograph>)
13328	0x6DDF	淟 (<CJK Ideograph>)
13329	0x6DD6	淖 (<CJK Ideograph>)
13330	0x6DBE	涾 (<CJK Ideograph>)
13331	0x6DE5	淥 (<CJK Ideograph>)
13332	0x6DDC	淜 (<CJK Ideograph>)
13333	0x6DDD	淝 (<CJK Ideograph>)
13334	0x6DDB	淛 (<CJK Ideograph>)
13335	0x6DF4	淴 (<CJK Ideograph>)
13336	0x6DCA	淊 (<CJK Ideograph>)
13337	0x6DBD	涽 (<CJK Ideograph>)
13338	0x6DED	淭 (<CJK Ideograph>)
13339	0x6DF0	淰 (<CJK Ideograph>)
13340	0x6DBA	涺 (<CJK Ideograph>)
13341	0x6DD5	淕 (<CJK Ideograph>)
13342	0x6DC2	淂 (<CJK Ideograph>)
13343	0x6DCF	淏 (<CJK Ideograph>)
13344	0x6DC9	淉 (<CJK Ideograph>)
"#

/-- encoding_tables/whatwg/index-big5.txt:12160-12316 -/
noncomputable def index85 : List Text := lines! r#"13345	0x6DD0	淐 (<CJK Ideograph>)
13346	0x6DF2	淲 (<CJK Ideograph>)
13347	0x6DD3	淓 (<CJK Ideograph>)
13348	0x6DFD	淽 (<CJK Ideograph>)
13349	0x6DD7	淗 (<CJK Ideograph>)
13350	0x6DCD	淍 (<CJK Ideograph>)
13351	0x6DE3	淣 (<CJK Ideograph>)
13352	0x6DBB	涻 (<CJK Ideograph>)
13353	0x70FA	烺 (<CJK Ideograph>)
13354	0x710D	焍 (<CJK Ideograph>)
13355	0x70F7	烷 (<CJK Ideograph>)
13356	0x7117	焗 (<CJK Ideograph>)
13357	0x70F4	烴 (<CJK Ideograph>)
13358	0x710C	焌 (<CJK Ideograph>)
13359	0x70F0	烰 (<CJK Ideograph>)
13360	0x7104	焄 (<CJK Ideograph>)
13361	0x70F3	烳 (<CJK Ideograph>)
13362	0x7110	焐 (<CJK Ideograph>)
13363	0x70FC	烼 (<CJK Ideograph>)
13364	0x70FF	烿 (<CJK Ideograph>)
13365	0x7106	焆 (<CJK Ideograph>)
13366	0x7113	焓 (<CJK Ideograph>)
13367	0x7100	焀 (<CJK Ideograph>)
13368	0x70F8	烸 (<CJK Ideograph>)
13369	0x70F6	烶 (<CJK Ideograph>)
13370	0x710B	焋 (<CJK Ideograph>)
13371	0x7102	焂 (<CJK Ideograph>)
13372	0x710E	焎 (<CJK Ideograph>)
13373	0x727E	牾 (<CJK Ideograph>)
13374	0x727B	牻 (<CJK Ideograph>)
13375	0x727C	牼 (<CJK Ideograph>)
13376	0x727F	牿 (<CJK Ideograph>)
13377	0x731D	猝 (<CJK Ideograph>)
13378	0x7317	猗 (<CJK Ideograph>)
13379	0x7307	猇 (<CJK Ideograph>)
13380	0x7311	猑 (<CJK Ideograph>)
13381	0x7318	猘 (<CJK Ideograph>)
13382	0x730A	猊 (<CJK Ideograph>)
13383	0x7308	猈 (<CJK Ideograph>)
13384	0x72FF	狿 (<CJK Ideograph>)
13385	0x730F	猏 (<CJK Ideograph>)
13386	0x731E	猞 (<CJK Ideograph>)
13387	0x7388	玈 (<CJK Ideograph>)
13388	0x73F6	珶 (<CJK Ideograph>)
13389	0x73F8	珸 (<CJK Ideograph>)
13390	0x73F5	珵 (<CJK Ideograph>)
13391	0x7404	琄 (<CJK Ideograph>)
13392	0x7401	琁 (<CJK Ideograph>)
13393	0x73FD	珽 (<CJK Ideograph>)
13394	0x7407	琇 (<CJK Ideograph>)
13395	0x7400	琀 (<CJK Ideograph>)
13396	0x73FA	珺 (<CJK Ideograph>)
13397	0x73FC	珼 (<CJK Ideograph>)
13398	0x73FF	珿 (<CJK Ideograph>)
13399	0x740C	琌 (<CJK Ideograph>)
13400	0x740B	琋 (<CJK Ideograph>)
13401	0x73F4	珴 (<CJK Ideograph>)
13402	0x7408	琈 (<CJK Ideograph>)
13403	0x7564	畤 (<CJK Ideograph>)
13404	0x7563	畣 (<CJK Ideograph>)
13405	0x75CE	痎 (<CJK Ideograph>)
13406	0x75D2	痒 (<CJK Ideograph>)
13407	0x75CF	痏 (<CJK Ideograph>)
13408	0x75CB	痋 (<CJK Ideograph>)
13409	0x75CC	痌 (<CJK Ideograph>)
13410	0x75D1	痑 (<CJK Ideograph>)
13411	0x75D0	痐 (<CJK Ideograph>)
13412	0x768F	皏 (<CJK Ideograph>)
13413	0x7689	皉 (<CJK Ideograph>)
13414	0x76D3	盓 (<CJK Ideograph>)
13415	0x7739	眹 (<CJK Ideograph>)
13416	0x772F	眯 (<CJK Ideograph>)
13417	0x772D	眭 (<CJK Ideograph>)
13418	0x7731	眱 (<CJK Ideograph>)
13419	0x7732	眲 (<CJK Ideograph>)
13420	0x7734	眴 (<CJK Ideograph>)
13421	0x7733	眳 (<CJK Ideograph>)
13422	0x773D	眽 (<CJK Ideograph>)
13423	0x7725	眥 (<CJK Ideograph>)
13424	0x773B	眻 (<CJK Ideograph>)
13425	0x7735	眵 (<CJK Ideograph>)
13426	0x7848	硈 (<CJK Ideograph>)
13427	0x7852	硒 (<CJK Ideograph>)
13428	0x7849	硉 (<CJK Ideograph>)
13429	0x784D	硍 (<CJK Ideograph>)
13430	0x784A	硊 (<CJK Ideograph>)
13431	0x784C	硌 (<CJK Ideograph>)
13432	0x7826	砦 (<CJK Ideograph>)
13433	0x7845	硅 (<CJK Ideograph>)
13434	0x7850	硐 (<CJK Ideograph>)
13435	0x7964	祤 (<CJK Ideograph>)
13436	0x7967	祧 (<CJK Ideograph>)
13437	0x7969	祩 (<CJK Ideograph>)
13438	0x796A	祪 (<CJK Ideograph>)
13439	0x7963	祣 (<CJK Ideograph>)
13440	0x796B	祫 (<CJK Ideograph>)
13441	0x7961	祡 (<CJK Ideograph>)
13442	0x79BB	离 (<CJK Ideograph>)
13443	0x79FA	秺 (<CJK Ideograph>)
13444	0x79F8	秸 (<CJK Ideograph>)
13445	0x79F6	秶 (<CJK Ideograph>)
13446	0x79F7	秷 (<CJK Ideograph>)
13447	0x7A8F	窏 (<CJK Ideograph>)
13448	0x7A94	窔 (<CJK Ideograph>)
13449	0x7A90	窐 (<CJK Ideograph>)
13450	0x7B35	笵 (<CJK Ideograph>)
13451	0x7B47	筇 (<CJK Ideograph>)
13452	0x7B34	笴 (<CJK Ideograph>)
13453	0x7B25	笥 (<CJK Ideograph>)
13454	0x7B30	笰 (<CJK Ideograph>)
13455	0x7B22	笢 (<CJK Ideograph>)
13456	0x7B24	笤 (<CJK Ideograph>)
13457	0x7B33	笳 (<CJK Ideograph>)
13458	0x7B18	笘 (<CJK Ideograph>)
13459	0x7B2A	笪 (<CJK Ideograph>)
13460	0x7B1D	笝 (<CJK Ideograph>)
13461	0x7B31	笱 (<CJK Ideograph>)
13462	0x7B2B	笫 (<CJK Ideograph>)
13463	0x7B2D	笭 (<CJK Ideograph>)
13464	0x7B2F	笯 (<CJK Ideograph>)
13465	0x7B32	笲 (<CJK Ideograph>)
13466	0x7B38	笸 (<CJK Ideograph>)
13467	0x7B1A	笚 (<CJK Ideograph>)
13468	0x7B23	笣 (<CJK Ideograph>)
13469	0x7C94	粔 (<CJK Ideograph>)
13470	0x7C98	粘 (<CJK Ideograph>)
13471	0x7C96	粖 (<CJK Ideograph>)
13472	0x7CA3	粣 (<CJK Ideograph>)
13473	0x7D35	紵 (<CJK Ideograph>)
13474	0x7D3D	紽 (<CJK Ideograph>)
13475	0x7D38	紸 (<CJK Ideograph>)
13476	0x7D36	紶 (<CJK Ideograph>)
13477	0x7D3A	紺 (<CJK Ideograph>)
13478	0x7D45	絅 (<CJK Ideograph>)
13479	0x7D2C	紬 (<CJK Ideograph>)
13480	0x7D29	紩 (<CJK Ideograph>)
13481	0x7D41	絁 (<CJK Ideograph>)
13482	0x7D47	絇 (<CJK Ideograph>)
13483	0x7D3E	紾 (<CJK Ideograph>)
13484	0x7D3F	紿 (<CJK Ideograph>)
13485	0x7D4A	絊 (<CJK Ideograph>)
13486	0x7D3B	紻 (<CJK Ideograph>)
13487	0x7D28	紨 (<CJK Ideograph>)
13488	0x7F63	罣 (<CJK Ideograph>)
13489	0x7F95	羕 (<CJK Ideograph>)
13490	0x7F9C	羜 (<CJK Ideograph>)
13491	0x7F9D	羝 (<CJK Ideograph>)
13492	0x7F9B	羛 (<CJK Ideograph>)
13493	0x7FCA	翊 (<CJK Ideograph>)
13494	0x7FCB	翋 (<CJK Ideograph>)
13495	0x7FCD	翍 (<CJK Ideograph>)
13496	0x7FD0	翐 (<CJK Ideograph>)
13497	0x7FD1	翑 (<CJK Ideograph>)
13498	0x7FC7	翇 (<CJK Ideograph>)
13499	0x7FCF	翏 (<CJK Ideograph>)
13500	0x7FC9	翉 (<CJK Ideograph>)
13501	0x801F	耟 (<CJK Ideograph>)
"#

/-- encoding_tables/whatwg/index-big5.txt:12317-12473 -/
noncomputable def index86 : List Text := lines! r#"13502	0x801E	耞 (<CJK Ideograph>)
13503	0x801B	耛 (<CJK Ideograph>)
13504	0x8047	聇 (<CJK Ideograph>)
13505	0x8043	聃 (<CJK Ideograph>)
13506	0x8048	聈 (<CJK Ideograph>)
13507	0x8118	脘 (<CJK Ideograph>)
13508	0x8125	脥 (<CJK Ideograph>)
13509	0x8119	脙 (<CJK Ideograph>)
13510	0x811B	脛 (<CJK Ideograph>)
13511	0x812D	脭 (<CJK Ideograph>)
13512	0x811F	脟 (<CJK Ideograph>)
13513	0x812C	脬 (<CJK Ideograph>)
13514	0x811E	脞 (<CJK Ideograph>)
13515	0x8121	脡 (<CJK Ideograph>)
13516	0x8115	脕 (<CJK Ideograph>)
13517	0x8127	脧 (<CJK Ideograph>)
13518	0x811D	脝 (<CJK Ideograph>)
13519	0x8122	脢 (<CJK Ideograph>)
13520	0x8211	舑 (<CJK Ideograph>)
13521	0x8238	舸 (<CJK Ideograph>)
13522	0x8233	舳 (<CJK Ideograph>)
13523	0x823A	舺 (<CJK Ideograph>)
13524	0x8234	舴 (<CJK Ideograph>)
13525	0x8232	舲 (<CJK Ideograph>)
13526	0x8274	艴 (<CJK Ideograph>)
13527	0x8390	莐 (<CJK Ideograph>)
13528	0x83A3	莣 (<CJK Ideograph>)
13529	0x83A8	莨 (<CJK Ideograph>)
13530	0x838D	莍 (<CJK Ideograph>)
13531	0x837A	荺 (<CJK Ideograph>)
13532	0x8373	荳 (<CJK Ideograph>)
13533	0x83A4	莤 (<CJK Ideograph>)
13534	0x8374	荴 (<CJK Ideograph>)
13535	0x838F	莏 (<CJK Ideograph>)
13536	0x8381	莁 (<CJK Ideograph>)
13537	0x8395	莕 (<CJK Ideograph>)
13538	0x8399	莙 (<CJK Ideograph>)
13539	0x8375	荵 (<CJK Ideograph>)
13540	0x8394	莔 (<CJK Ideograph>)
13541	0x83A9	莩 (<CJK Ideograph>)
13542	0x837D	荽 (<CJK Ideograph>)
13543	0x8383	莃 (<CJK Ideograph>)
13544	0x838C	莌 (<CJK Ideograph>)
13545	0x839D	莝 (<CJK Ideograph>)
13546	0x839B	莛 (<CJK Ideograph>)
13547	0x83AA	莪 (<CJK Ideograph>)
13548	0x838B	莋 (<CJK Ideograph>)
13549	0x837E	荾 (<CJK Ideograph>)
13550	0x83A5	莥 (<CJK Ideograph>)
13551	0x83AF	莯 (<CJK Ideograph>)
13552	0x8388	莈 (<CJK Ideograph>)
13553	0x8397	莗 (<CJK Ideograph>)
13554	0x83B0	莰 (<CJK Ideograph>)
13555	0x837F	荿 (<CJK Ideograph>)
13556	0x83A6	莦 (<CJK Ideograph>)
13557	0x8387	莇 (<CJK Ideograph>)
13558	0x83AE	莮 (<CJK Ideograph>)
13559	0x8376	荶 (<CJK Ideograph>)
13560	0x839A	莚 (<CJK Ideograph>)
13561	0x8659	虙 (<CJK Ideograph>)
13562	0x8656	虖 (<CJK Ideograph>)
13563	0x86BF	蚿 (<CJK Ideograph>)
13564	0x86B7	蚷 (<CJK Ideograph>)
13565	0x86C2	蛂 (<CJK Ideograph>)
13566	0x86C1	蛁 (<CJK Ideograph>)
13567	0x86C5	蛅 (<CJK Ideograph>)
13568	0x86BA	蚺 (<CJK Ideograph>)
13569	0x86B0	蚰 (<CJK Ideograph>)
13570	0x86C8	蛈 (<CJK Ideograph>)
13571	0x86B9	蚹 (<CJK Ideograph>)
13572	0x86B3	蚳 (<CJK Ideograph>)
13573	0x86B8	蚸 (<CJK Ideograph>)
13574	0x86CC	蛌 (<CJK Ideograph>)
13575	0x86B4	蚴 (<CJK Ideograph>)
13576	0x86BB	蚻 (<CJK Ideograph>)
13577	0x86BC	蚼 (<CJK Ideograph>)
13578	0x86C3	蛃 (<CJK Ideograph>)
13579	0x86BD	蚽 (<CJK Ideograph>)
13580	0x86BE	蚾 (<CJK Ideograph>)
13581	0x8852	衒 (<CJK Ideograph>)
13582	0x8889	袉 (<CJK Ideograph>)
13583	0x8895	袕 (<CJK Ideograph>)
13584	0x88A8	袨 (<CJK Ideograph>)
13585	0x88A2	袢 (<CJK Ideograph>)
13586	0x88AA	袪 (<CJK Ideograph>)
13587	0x889A	袚 (<CJK Ideograph>)
13588	0x8891	袑 (<CJK Ideograph>)
13589	0x88A1	袡 (<CJK Ideograph>)
13590	0x889F	袟 (<CJK Ideograph>)
13591	0x8898	袘 (<CJK Ideograph>)
13592	0x88A7	袧 (<CJK Ideograph>)
13593	0x8899	袙 (<CJK Ideograph>)
13594	0x889B	袛 (<CJK Ideograph>)
13595	0x8897	袗 (<CJK Ideograph>)
13596	0x88A4	袤 (<CJK Ideograph>)
13597	0x88AC	袬 (<CJK Ideograph>)
13598	0x888C	袌 (<CJK Ideograph>)
13599	0x8893	袓 (<CJK Ideograph>)
13600	0x888E	袎 (<CJK Ideograph>)
13601	0x8982	覂 (<CJK Ideograph>)
13602	0x89D6	觖 (<CJK Ideograph>)
13603	0x89D9	觙 (<CJK Ideograph>)
13604	0x89D5	觕 (<CJK Ideograph>)
13605	0x8A30	訰 (<CJK Ideograph>)
13606	0x8A27	訧 (<CJK Ideograph>)
13607	0x8A2C	訬 (<CJK Ideograph>)
13608	0x8A1E	訞 (<CJK Ideograph>)
13609	0x8C39	谹 (<CJK Ideograph>)
13610	0x8C3B	谻 (<CJK Ideograph>)
13611	0x8C5C	豜 (<CJK Ideograph>)
13612	0x8C5D	豝 (<CJK Ideograph>)
13613	0x8C7D	豽 (<CJK Ideograph>)
13614	0x8CA5	貥 (<CJK Ideograph>)
13615	0x8D7D	赽 (<CJK Ideograph>)
13616	0x8D7B	赻 (<CJK Ideograph>)
13617	0x8D79	赹 (<CJK Ideograph>)
13618	0x8DBC	趼 (<CJK Ideograph>)
13619	0x8DC2	跂 (<CJK Ideograph>)
13620	0x8DB9	趹 (<CJK Ideograph>)
13621	0x8DBF	趿 (<CJK Ideograph>)
13622	0x8DC1	跁 (<CJK Ideograph>)
13623	0x8ED8	軘 (<CJK Ideograph>)
13624	0x8EDE	軞 (<CJK Ideograph>)
13625	0x8EDD	軝 (<CJK Ideograph>)
13626	0x8EDC	軜 (<CJK Ideograph>)
13627	0x8ED7	軗 (<CJK Ideograph>)
13628	0x8EE0	軠 (<CJK Ideograph>)
13629	0x8EE1	軡 (<CJK Ideograph>)
13630	0x9024	逤 (<CJK Ideograph>)
13631	0x900B	逋 (<CJK Ideograph>)
13632	0x9011	逑 (<CJK Ideograph>)
13633	0x901C	逜 (<CJK Ideograph>)
13634	0x900C	逌 (<CJK Ideograph>)
13635	0x9021	逡 (<CJK Ideograph>)
13636	0x90EF	郯 (<CJK Ideograph>)
13637	0x90EA	郪 (<CJK Ideograph>)
13638	0x90F0	郰 (<CJK Ideograph>)
13639	0x90F4	郴 (<CJK Ideograph>)
13640	0x90F2	郲 (<CJK Ideograph>)
13641	0x90F3	郳 (<CJK Ideograph>)
13642	0x90D4	郔 (<CJK Ideograph>)
13643	0x90EB	郫 (<CJK Ideograph>)
13644	0x90EC	郬 (<CJK Ideograph>)
13645	0x90E9	郩 (<CJK Ideograph>)
13646	0x9156	酖 (<CJK Ideograph>)
13647	0x9158	酘 (<CJK Ideograph>)
13648	0x915A	酚 (<CJK Ideograph>)
13649	0x9153	酓 (<CJK Ideograph>)
13650	0x9155	酕 (<CJK Ideograph>)
13651	0x91EC	釬 (<CJK Ideograph>)
13652	0x91F4	釴 (<CJK Ideograph>)
13653	0x91F1	釱 (<CJK Ideograph>)
13654	0x91F3	釳 (<CJK Ideograph>)
13655	0x91F8	釸 (<CJK Ideograph>)
13656	0x91E4	釤 (<CJK Ideograph>)
13657	0x91F9	釹 (<CJK Ideograph>)
13658	0x91EA	釪 (<CJK Ideograph>)
"#

/-- encoding_tables/whatwg/index-big5.txt:12474-12630 -/
noncomputable def index87 : List Text := lines! r#"13659	0x91EB	釫 (<CJK Ideograph>)
13660	0x91F7	釷 (<CJK Ideograph>)
13661	0x91E8	釨 (<CJK Ideograph>)
13662	0x91EE	釮 (<CJK Ideograph>)
13663	0x957A	镺 (<CJK Ideograph>)
13664	0x9586	閆 (<CJK Ideograph>)
13665	0x9588	閈 (<CJK Ideograph>)
13666	0x967C	陼 (<CJK Ideograph>)
13667	0x966D	陭 (<CJK Ideograph>)
13668	0x966B	陫 (<CJK Ideograph>)
13669	0x9671	陱 (<CJK Ideograph>)
13670	0x966F	陯 (<CJK Ideograph>)
13671	0x96BF	隿 (<CJK Ideograph>)
13672	0x976A	靪 (<CJK Ideograph>)
13673	0x9804	頄 (<CJK Ideograph>)
13674	0x98E5	飥 (<CJK Ideograph>)
13675	0x9997	馗 (<CJK Ideograph>)
13676	0x509B	傛 (<CJK Ideograph>)
13677	0x5095	傕 (<CJK Ideograph>)
13678	0x5094	傔 (<CJK Ideograph>)
13679	0x509E	傞 (<CJK Ideograph>)
13680	0x508B	傋 (<CJK Ideograph>)
13681	0x50A3	傣 (<CJK Ideograph>)
13682	0x5083	傃 (<CJK Ideograph>)
13683	0x508C	傌 (<CJK Ideograph>)
13684	0x508E	傎 (<CJK Ideograph>)
13685	0x509D	傝 (<CJK Ideograph>)
13686	0x5068	偨 (<CJK Ideograph>)
13687	0x509C	傜 (<CJK Ideograph>)
13688	0x5092	傒 (<CJK Ideograph>)
13689	0x5082	傂 (<CJK Ideograph>)
13690	0x5087	傇 (<CJK Ideograph>)
13691	0x515F	兟 (<CJK Ideograph>)
13692	0x51D4	凔 (<CJK Ideograph>)
13693	0x5312	匒 (<CJK Ideograph>)
13694	0x5311	匑 (<CJK Ideograph>)
13695	0x53A4	厤 (<CJK Ideograph>)
13696	0x53A7	厧 (<CJK Ideograph>)
13697	0x5591	喑 (<CJK Ideograph>)
13698	0x55A8	喨 (<CJK Ideograph>)
13699	0x55A5	喥 (<CJK Ideograph>)
13700	0x55AD	喭 (<CJK Ideograph>)
13701	0x5577	啷 (<CJK Ideograph>)
13702	0x5645	噅 (<CJK Ideograph>)
13703	0x55A2	喢 (<CJK Ideograph>)
13704	0x5593	喓 (<CJK Ideograph>)
13705	0x5588	喈 (<CJK Ideograph>)
13706	0x558F	喏 (<CJK Ideograph>)
13707	0x55B5	喵 (<CJK Ideograph>)
13708	0x5581	喁 (<CJK Ideograph>)
13709	0x55A3	喣 (<CJK Ideograph>)
13710	0x5592	喒 (<CJK Ideograph>)
13711	0x55A4	喤 (<CJK Ideograph>)
13712	0x557D	啽 (<CJK Ideograph>)
13713	0x558C	喌 (<CJK Ideograph>)
13714	0x55A6	喦 (<CJK Ideograph>)
13715	0x557F	啿 (<CJK Ideograph>)
13716	0x5595	喕 (<CJK Ideograph>)
13717	0x55A1	喡 (<CJK Ideograph>)
13718	0x558E	喎 (<CJK Ideograph>)
13719	0x570C	圌 (<CJK Ideograph>)
13720	0x5829	堩 (<CJK Ideograph>)
13721	0x5837	堷 (<CJK Ideograph>)
13722	0x5819	堙 (<CJK Ideograph>)
13723	0x581E	堞 (<CJK Ideograph>)
13724	0x5827	堧 (<CJK Ideograph>)
13725	0x5823	堣 (<CJK Ideograph>)
13726	0x5828	堨 (<CJK Ideograph>)
13727	0x57F5	埵 (<CJK Ideograph>)
13728	0x5848	塈 (<CJK Ideograph>)
13729	0x5825	堥 (<CJK Ideograph>)
13730	0x581C	堜 (<CJK Ideograph>)
13731	0x581B	堛 (<CJK Ideograph>)
13732	0x5833	堳 (<CJK Ideograph>)
13733	0x583F	堿 (<CJK Ideograph>)
13734	0x5836	堶 (<CJK Ideograph>)
13735	0x582E	堮 (<CJK Ideograph>)
13736	0x5839	堹 (<CJK Ideograph>)
13737	0x5838	堸 (<CJK Ideograph>)
13738	0x582D	堭 (<CJK Ideograph>)
13739	0x582C	堬 (<CJK Ideograph>)
13740	0x583B	堻 (<CJK Ideograph>)
13741	0x5961	奡 (<CJK Ideograph>)
13742	0x5AAF	媯 (<CJK Ideograph>)
13743	0x5A94	媔 (<CJK Ideograph>)
13744	0x5A9F	媟 (<CJK Ideograph>)
13745	0x5A7A	婺 (<CJK Ideograph>)
13746	0x5AA2	媢 (<CJK Ideograph>)
13747	0x5A9E	媞 (<CJK Ideograph>)
13748	0x5A78	婸 (<CJK Ideograph>)
13749	0x5AA6	媦 (<CJK Ideograph>)
13750	0x5A7C	婼 (<CJK Ideograph>)
13751	0x5AA5	媥 (<CJK Ideograph>)
13752	0x5AAC	媬 (<CJK Ideograph>)
13753	0x5A95	媕 (<CJK Ideograph>)
13754	0x5AAE	媮 (<CJK Ideograph>)
13755	0x5A37	娷 (<CJK Ideograph>)
13756	0x5A84	媄 (<CJK Ideograph>)
13757	0x5A8A	媊 (<CJK Ideograph>)
13758	0x5A97	媗 (<CJK Ideograph>)
13759	0x5A83	媃 (<CJK Ideograph>)
13760	0x5A8B	媋 (<CJK Ideograph>)
13761	0x5AA9	媩 (<CJK Ideograph>)
13762	0x5A7B	婻 (<CJK Ideograph>)
13763	0x5A7D	婽 (<CJK Ideograph>)
13764	0x5A8C	媌 (<CJK Ideograph>)
13765	0x5A9C	媜 (<CJK Ideograph>)
13766	0x5A8F	媏 (<CJK Ideograph>)
13767	0x5A93	媓 (<CJK Ideograph>)
13768	0x5A9D	媝 (<CJK Ideograph>)
13769	0x5BEA	寪 (<CJK Ideograph>)
13770	0x5BCD	寍 (<CJK Ideograph>)
13771	0x5BCB	寋 (<CJK Ideograph>)
13772	0x5BD4	寔 (<CJK Ideograph>)
13773	0x5BD1	寑 (<CJK Ideograph>)
13774	0x5BCA	寊 (<CJK Ideograph>)
13775	0x5BCE	寎 (<CJK Ideograph>)
13776	0x5C0C	尌 (<CJK Ideograph>)
13777	0x5C30	尰 (<CJK Ideograph>)
13778	0x5D37	崷 (<CJK Ideograph>)
13779	0x5D43	嵃 (<CJK Ideograph>)
13780	0x5D6B	嵫 (<CJK Ideograph>)
13781	0x5D41	嵁 (<CJK Ideograph>)
13782	0x5D4B	嵋 (<CJK Ideograph>)
13783	0x5D3F	崿 (<CJK Ideograph>)
13784	0x5D35	崵 (<CJK Ideograph>)
13785	0x5D51	嵑 (<CJK Ideograph>)
13786	0x5D4E	嵎 (<CJK Ideograph>)
13787	0x5D55	嵕 (<CJK Ideograph>)
13788	0x5D33	崳 (<CJK Ideograph>)
13789	0x5D3A	崺 (<CJK Ideograph>)
13790	0x5D52	嵒 (<CJK Ideograph>)
13791	0x5D3D	崽 (<CJK Ideograph>)
13792	0x5D31	崱 (<CJK Ideograph>)
13793	0x5D59	嵙 (<CJK Ideograph>)
13794	0x5D42	嵂 (<CJK Ideograph>)
13795	0x5D39	崹 (<CJK Ideograph>)
13796	0x5D49	嵉 (<CJK Ideograph>)
13797	0x5D38	崸 (<CJK Ideograph>)
13798	0x5D3C	崼 (<CJK Ideograph>)
13799	0x5D32	崲 (<CJK Ideograph>)
13800	0x5D36	崶 (<CJK Ideograph>)
13801	0x5D40	嵀 (<CJK Ideograph>)
13802	0x5D45	嵅 (<CJK Ideograph>)
13803	0x5E44	幄 (<CJK Ideograph>)
13804	0x5E41	幁 (<CJK Ideograph>)
13805	0x5F58	彘 (<CJK Ideograph>)
13806	0x5FA6	徦 (<CJK Ideograph>)
13807	0x5FA5	徥 (<CJK Ideograph>)
13808	0x5FAB	徫 (<CJK Ideograph>)
13809	0x60C9	惉 (<CJK Ideograph>)
13810	0x60B9	悹 (<CJK Ideograph>)
13811	0x60CC	惌 (<CJK Ideograph>)
13812	0x60E2	惢 (<CJK Ideograph>)
13813	0x60CE	惎 (<CJK Ideograph>)
13814	0x60C4	惄 (<CJK Ideograph>)
13815	0x6114	愔 (<CJK Ideograph>)
"#

/-- encoding_tables/whatwg/index-big5.txt:12631-12787 -/
noncomputable def index88 : List Text := lines! r#"13816	0x60F2	惲 (<CJK Ideograph>)
13817	0x610A	愊 (<CJK Ideograph>)
13818	0x6116	愖 (<CJK Ideograph>)
13819	0x6105	愅 (<CJK Ideograph>)
13820	0x60F5	惵 (<CJK Ideograph>)
13821	0x6113	愓 (<CJK Ideograph>)
13822	0x60F8	惸 (<CJK Ideograph>)
13823	0x60FC	惼 (<CJK Ideograph>)
13824	0x60FE	惾 (<CJK Ideograph>)
13825	0x60C1	惁 (<CJK Ideograph>)
13826	0x6103	愃 (<CJK Ideograph>)
13827	0x6118	愘 (<CJK Ideograph>)
13828	0x611D	愝 (<CJK Ideograph>)
13829	0x6110	愐 (<CJK Ideograph>)
13830	0x60FF	惿 (<CJK Ideograph>)
13831	0x6104	愄 (<CJK Ideograph>)
13832	0x610B	愋 (<CJK Ideograph>)
13833	0x624A	扊 (<CJK Ideograph>)
13834	0x6394	掔 (<CJK Ideograph>)
13835	0x63B1	掱 (<CJK Ideograph>)
13836	0x63B0	掰 (<CJK Ideograph>)
13837	0x63CE	揎 (<CJK Ideograph>)
13838	0x63E5	揥 (<CJK Ideograph>)
13839	0x63E8	揨 (<CJK Ideograph>)
13840	0x63EF	揯 (<CJK Ideograph>)
13841	0x63C3	揃 (<CJK Ideograph>)
13842	0x649D	撝 (<CJK Ideograph>)
13843	0x63F3	揳 (<CJK Ideograph>)
13844	0x63CA	揊 (<CJK Ideograph>)
13845	0x63E0	揠 (<CJK Ideograph>)
13846	0x63F6	揶 (<CJK Ideograph>)
13847	0x63D5	揕 (<CJK Ideograph>)
13848	0x63F2	揲 (<CJK Ideograph>)
13849	0x63F5	揵 (<CJK Ideograph>)
13850	0x6461	摡 (<CJK Ideograph>)
13851	0x63DF	揟 (<CJK Ideograph>)
13852	0x63BE	掾 (<CJK Ideograph>)
13853	0x63DD	揝 (<CJK Ideograph>)
13854	0x63DC	揜 (<CJK Ideograph>)
13855	0x63C4	揄 (<CJK Ideograph>)
13856	0x63D8	揘 (<CJK Ideograph>)
13857	0x63D3	揓 (<CJK Ideograph>)
13858	0x63C2	揂 (<CJK Ideograph>)
13859	0x63C7	揇 (<CJK Ideograph>)
13860	0x63CC	揌 (<CJK Ideograph>)
13861	0x63CB	揋 (<CJK Ideograph>)
13862	0x63C8	揈 (<CJK Ideograph>)
13863	0x63F0	揰 (<CJK Ideograph>)
13864	0x63D7	揗 (<CJK Ideograph>)
13865	0x63D9	揙 (<CJK Ideograph>)
13866	0x6532	攲 (<CJK Ideograph>)
13867	0x6567	敧 (<CJK Ideograph>)
13868	0x656A	敪 (<CJK Ideograph>)
13869	0x6564	敤 (<CJK Ideograph>)
13870	0x655C	敜 (<CJK Ideograph>)
13871	0x6568	敨 (<CJK Ideograph>)
13872	0x6565	敥 (<CJK Ideograph>)
13873	0x658C	斌 (<CJK Ideograph>)
13874	0x659D	斝 (<CJK Ideograph>)
13875	0x659E	斞 (<CJK Ideograph>)
13876	0x65AE	斮 (<CJK Ideograph>)
13877	0x65D0	旐 (<CJK Ideograph>)
13878	0x65D2	旒 (<CJK Ideograph>)
13879	0x667C	晼 (<CJK Ideograph>)
13880	0x666C	晬 (<CJK Ideograph>)
13881	0x667B	晻 (<CJK Ideograph>)
13882	0x6680	暀 (<CJK Ideograph>)
13883	0x6671	晱 (<CJK Ideograph>)
13884	0x6679	晹 (<CJK Ideograph>)
13885	0x666A	晪 (<CJK Ideograph>)
13886	0x6672	晲 (<CJK Ideograph>)
13887	0x6701	朁 (<CJK Ideograph>)
13888	0x690C	椌 (<CJK Ideograph>)
13889	0x68D3	棓 (<CJK Ideograph>)
13890	0x6904	椄 (<CJK Ideograph>)
13891	0x68DC	棜 (<CJK Ideograph>)
13892	0x692A	椪 (<CJK Ideograph>)
13893	0x68EC	棬 (<CJK Ideograph>)
13894	0x68EA	棪 (<CJK Ideograph>)
13895	0x68F1	棱 (<CJK Ideograph>)
13896	0x690F	椏 (<CJK Ideograph>)
13897	0x68D6	棖 (<CJK Ideograph>)
13898	0x68F7	棷 (<CJK Ideograph>)
13899	0x68EB	棫 (<CJK Ideograph>)
13900	0x68E4	棤 (<CJK Ideograph>)
13901	0x68F6	棶 (<CJK Ideograph>)
13902	0x6913	椓 (<CJK Ideograph>)
13903	0x6910	椐 (<CJK Ideograph>)
13904	0x68F3	棳 (<CJK Ideograph>)
13905	0x68E1	棡 (<CJK Ideograph>)
13906	0x6907	椇 (<CJK Ideograph>)
13907	0x68CC	棌 (<CJK Ideograph>)
13908	0x6908	椈 (<CJK Ideograph>)
13909	0x6970	楰 (<CJK Ideograph>)
13910	0x68B4	梴 (<CJK Ideograph>)
13911	0x6911	椑 (<CJK Ideograph>)
13912	0x68EF	棯 (<CJK Ideograph>)
13913	0x68C6	棆 (<CJK Ideograph>)
13914	0x6914	椔 (<CJK Ideograph>)
13915	0x68F8	棸 (<CJK Ideograph>)
13916	0x68D0	棐 (<CJK Ideograph>)
13917	0x68FD	棽 (<CJK Ideograph>)
13918	0x68FC	棼 (<CJK Ideograph>)
13919	0x68E8	棨 (<CJK Ideograph>)
13920	0x690B	椋 (<CJK Ideograph>)
13921	0x690A	椊 (<CJK Ideograph>)
13922	0x6917	椗 (<CJK Ideograph>)
13923	0x68CE	棎 (<CJK Ideograph>)
13924	0x68C8	棈 (<CJK Ideograph>)
13925	0x68DD	棝 (<CJK Ideograph>)
13926	0x68DE	棞 (<CJK Ideograph>)
13927	0x68E6	棦 (<CJK Ideograph>)
13928	0x68F4	棴 (<CJK Ideograph>)
13929	0x68D1	棑 (<CJK Ideograph>)
13930	0x6906	椆 (<CJK Ideograph>)
13931	0x68D4	棔 (<CJK Ideograph>)
13932	0x68E9	棩 (<CJK Ideograph>)
13933	0x6915	椕 (<CJK Ideograph>)
13934	0x6925	椥 (<CJK Ideograph>)
13935	0x68C7	棇 (<CJK Ideograph>)
13936	0x6B39	欹 (<CJK Ideograph>)
13937	0x6B3B	欻 (<CJK Ideograph>)
13938	0x6B3F	欿 (<CJK Ideograph>)
13939	0x6B3C	欼 (<CJK Ideograph>)
13940	0x6B94	殔 (<CJK Ideograph>)
13941	0x6B97	殗 (<CJK Ideograph>)
13942	0x6B99	殙 (<CJK Ideograph>)
13943	0x6B95	殕 (<CJK Ideograph>)
13944	0x6BBD	殽 (<CJK Ideograph>)
13945	0x6BF0	毰 (<CJK Ideograph>)
13946	0x6BF2	毲 (<CJK Ideograph>)
13947	0x6BF3	毳 (<CJK Ideograph>)
13948	0x6C30	氰 (<CJK Ideograph>)
13949	0x6DFC	淼 (<CJK Ideograph>)
13950	0x6E46	湆 (<CJK Ideograph>)
13951	0x6E47	湇 (<CJK Ideograph>)
13952	0x6E1F	渟 (<CJK Ideograph>)
13953	0x6E49	湉 (<CJK Ideograph>)
13954	0x6E88	溈 (<CJK Ideograph>)
13955	0x6E3C	渼 (<CJK Ideograph>)
13956	0x6E3D	渽 (<CJK Ideograph>)
13957	0x6E45	湅 (<CJK Ideograph>)
13958	0x6E62	湢 (<CJK Ideograph>)
13959	0x6E2B	渫 (<CJK Ideograph>)
13960	0x6E3F	渿 (<CJK Ideograph>)
13961	0x6E41	湁 (<CJK Ideograph>)
13962	0x6E5D	湝 (<CJK Ideograph>)
13963	0x6E73	湳 (<CJK Ideograph>)
13964	0x6E1C	渜 (<CJK Ideograph>)
13965	0x6E33	渳 (<CJK Ideograph>)
13966	0x6E4B	湋 (<CJK Ideograph>)
13967	0x6E40	湀 (<CJK Ideograph>)
13968	0x6E51	湑 (<CJK Ideograph>)
13969	0x6E3B	渻 (<CJK Ideograph>)
13970	0x6E03	渃 (<CJK Ideograph>)
13971	0x6E2E	渮 (<CJK Ideograph>)
13972	0x6E5E	湞 (<CJK Ideograph>)
"#

/-- encoding_tables/whatwg/index-big5.txt:12788-12944 -/
noncomputable def index89 : List Text := lines! r#"13973	0x6E68	湨 (<CJK Ideograph>)
13974	0x6E5C	湜 (<CJK Ideograph>)
13975	0x6E61	湡 (<CJK Ideograph>)
13976	0x6E31	渱 (<CJK Ideograph>)
13977	0x6E28	渨 (<CJK Ideograph>)
13978	0x6E60	湠 (<CJK Ideograph>)
13979	0x6E71	湱 (<CJK Ideograph>)
13980	0x6E6B	湫 (<CJK Ideograph>)
13981	0x6E39	渹 (<CJK Ideograph>)
13982	0x6E22	渢 (<CJK Ideograph>)
13983	0x6E30	渰 (<CJK Ideograph>)
13984	0x6E53	湓 (<CJK Ideograph>)
13985	0x6E65	湥 (<CJK Ideograph>)
13986	0x6E27	渧 (<CJK Ideograph>)
13987	0x6E78	湸 (<CJK Ideograph>)
13988	0x6E64	湤 (<CJK Ideograph>)
13989	0x6E77	湷 (<CJK Ideograph>)
13990	0x6E55	湕 (<CJK Ideograph>)
13991	0x6E79	湹 (<CJK Ideograph>)
13992	0x6E52	湒 (<CJK Ideograph>)
13993	0x6E66	湦 (<CJK Ideograph>)
13994	0x6E35	渵 (<CJK Ideograph>)
13995	0x6E36	渶 (<CJK Ideograph>)
13996	0x6E5A	湚 (<CJK Ideograph>)
13997	0x7120	焠 (<CJK Ideograph>)
13998	0x711E	焞 (<CJK Ideograph>)
13999	0x712F	焯 (<CJK Ideograph>)
14000	0x70FB	烻 (<CJK Ideograph>)
14001	0x712E	焮 (<CJK Ideograph>)
14002	0x7131	焱 (<CJK Ideograph>)
14003	0x7123	焣 (<CJK Ideograph>)
14004	0x7125	焥 (<CJK Ideograph>)
14005	0x7122	焢 (<CJK Ideograph>)
14006	0x7132	焲 (<CJK Ideograph>)
14007	0x711F	焟 (<CJK Ideograph>)
14008	0x7128	焨 (<CJK Ideograph>)
14009	0x713A	焺 (<CJK Ideograph>)
14010	0x711B	焛 (<CJK Ideograph>)
14011	0x724B	牋 (<CJK Ideograph>)
14012	0x725A	牚 (<CJK Ideograph>)
14013	0x7288	犈 (<CJK Ideograph>)
14014	0x7289	犉 (<CJK Ideograph>)
14015	0x7286	犆 (<CJK Ideograph>)
14016	0x7285	犅 (<CJK Ideograph>)
14017	0x728B	犋 (<CJK Ideograph>)
14018	0x7312	猒 (<CJK Ideograph>)
14019	0x730B	猋 (<CJK Ideograph>)
14020	0x7330	猰 (<CJK Ideograph>)
14021	0x7322	猢 (<CJK Ideograph>)
14022	0x7331	猱 (<CJK Ideograph>)
14023	0x7333	猳 (<CJK Ideograph>)
14024	0x7327	猧 (<CJK Ideograph>)
14025	0x7332	猲 (<CJK Ideograph>)
14026	0x732D	猭 (<CJK Ideograph>)
14027	0x7326	猦 (<CJK Ideograph>)
14028	0x7323	猣 (<CJK Ideograph>)
14029	0x7335	猵 (<CJK Ideograph>)
14030	0x730C	猌 (<CJK Ideograph>)
14031	0x742E	琮 (<CJK Ideograph>)
14032	0x742C	琬 (<CJK Ideograph>)
14033	0x7430	琰 (<CJK Ideograph>)
14034	0x742B	琫 (<CJK Ideograph>)
14035	0x7416	琖 (<CJK Ideograph>)
14036	0x741A	琚 (<CJK Ideograph>)
14037	0x7421	琡 (<CJK Ideograph>)
14038	0x742D	琭 (<CJK Ideograph>)
14039	0x7431	琱 (<CJK Ideograph>)
14040	0x7424	琤 (<CJK Ideograph>)
14041	0x7423	琣 (<CJK Ideograph>)
14042	0x741D	琝 (<CJK Ideograph>)
14043	0x7429	琩 (<CJK Ideograph>)
14044	0x7420	琠 (<CJK Ideograph>)
14045	0x7432	琲 (<CJK Ideograph>)
14046	0x74FB	瓻 (<CJK Ideograph>)
14047	0x752F	甯 (<CJK Ideograph>)
14048	0x756F	畯 (<CJK Ideograph>)
14049	0x756C	畬 (<CJK Ideograph>)
14050	0x75E7	痧 (<CJK Ideograph>)
14051	0x75DA	痚 (<CJK Ideograph>)
14052	0x75E1	痡 (<CJK Ideograph>)
14053	0x75E6	痦 (<CJK Ideograph>)
14054	0x75DD	痝 (<CJK Ideograph>)
14055	0x75DF	痟 (<CJK Ideograph>)
14056	0x75E4	痤 (<CJK Ideograph>)
14057	0x75D7	痗 (<CJK Ideograph>)
14058	0x7695	皕 (<CJK Ideograph>)
14059	0x7692	皒 (<CJK Ideograph>)
14060	0x76DA	盚 (<CJK Ideograph>)
14061	0x7746	睆 (<CJK Ideograph>)
14062	0x7747	睇 (<CJK Ideograph>)
14063	0x7744	睄 (<CJK Ideograph>)
14064	0x774D	睍 (<CJK Ideograph>)
14065	0x7745	睅 (<CJK Ideograph>)
14066	0x774A	睊 (<CJK Ideograph>)
14067	0x774E	睎 (<CJK Ideograph>)
14068	0x774B	睋 (<CJK Ideograph>)
14069	0x774C	睌 (<CJK Ideograph>)
14070	0x77DE	矞 (<CJK Ideograph>)
14071	0x77EC	矬 (<CJK Ideograph>)
14072	0x7860	硠 (<CJK Ideograph>)
14073	0x7864	硤 (<CJK Ideograph>)
14074	0x7865	硥 (<CJK Ideograph>)
14075	0x785C	硜 (<CJK Ideograph>)
14076	0x786D	硭 (<CJK Ideograph>)
14077	0x7871	硱 (<CJK Ideograph>)
14078	0x786A	硪 (<CJK Ideograph>)
14079	0x786E	确 (<CJK Ideograph>)
14080	0x7870	硰 (<CJK Ideograph>)
14081	0x7869	硩 (<CJK Ideograph>)
14082	0x7868	硨 (<CJK Ideograph>)
14083	0x785E	硞 (<CJK Ideograph>)
14084	0x7862	硢 (<CJK Ideograph>)
14085	0x7974	祴 (<CJK Ideograph>)
14086	0x7973	祳 (<CJK Ideograph>)
14087	0x7972	祲 (<CJK Ideograph>)
14088	0x7970	祰 (<CJK Ideograph>)
14089	0x7A02	稂 (<CJK Ideograph>)
14090	0x7A0A	稊 (<CJK Ideograph>)
14091	0x7A03	稃 (<CJK Ideograph>)
14092	0x7A0C	稌 (<CJK Ideograph>)
14093	0x7A04	稄 (<CJK Ideograph>)
14094	0x7A99	窙 (<CJK Ideograph>)
14095	0x7AE6	竦 (<CJK Ideograph>)
14096	0x7AE4	竤 (<CJK Ideograph>)
14097	0x7B4A	筊 (<CJK Ideograph>)
14098	0x7B3B	笻 (<CJK Ideograph>)
14099	0x7B44	筄 (<CJK Ideograph>)
14100	0x7B48	筈 (<CJK Ideograph>)
14101	0x7B4C	筌 (<CJK Ideograph>)
14102	0x7B4E	筎 (<CJK Ideograph>)
14103	0x7B40	筀 (<CJK Ideograph>)
14104	0x7B58	筘 (<CJK Ideograph>)
14105	0x7B45	筅 (<CJK Ideograph>)
14106	0x7CA2	粢 (<CJK Ideograph>)
14107	0x7C9E	粞 (<CJK Ideograph>)
14108	0x7CA8	粨 (<CJK Ideograph>)
14109	0x7CA1	粡 (<CJK Ideograph>)
14110	0x7D58	絘 (<CJK Ideograph>)
14111	0x7D6F	絯 (<CJK Ideograph>)
14112	0x7D63	絣 (<CJK Ideograph>)
14113	0x7D53	絓 (<CJK Ideograph>)
14114	0x7D56	絖 (<CJK Ideograph>)
14115	0x7D67	絧 (<CJK Ideograph>)
14116	0x7D6A	絪 (<CJK Ideograph>)
14117	0x7D4F	絏 (<CJK Ideograph>)
14118	0x7D6D	絭 (<CJK Ideograph>)
14119	0x7D5C	絜 (<CJK Ideograph>)
14120	0x7D6B	絫 (<CJK Ideograph>)
14121	0x7D52	絒 (<CJK Ideograph>)
14122	0x7D54	絔 (<CJK Ideograph>)
14123	0x7D69	絩 (<CJK Ideograph>)
14124	0x7D51	絑 (<CJK Ideograph>)
14125	0x7D5F	絟 (<CJK Ideograph>)
14126	0x7D4E	絎 (<CJK Ideograph>)
14127	0x7F3E	缾 (<CJK Ideograph>)
14128	0x7F3F	缿 (<CJK Ideograph>)
14129	0x7F65	罥 (<CJK Ideograph>)
"#

/-- encoding_tables/whatwg/index-big5.txt:12945-13101 -/
noncomputable def index90 : List Text := lines! r#"14130	0x7F66	罦 (<CJK Ideograph>)
14131	0x7FA2	羢 (<CJK Ideograph>)
14132	0x7FA0	羠 (<CJK Ideograph>)
14133	0x7FA1	羡 (<CJK Ideograph>)
14134	0x7FD7	翗 (<CJK Ideograph>)
14135	0x8051	聑 (<CJK Ideograph>)
14136	0x804F	聏 (<CJK Ideograph>)
14137	0x8050	聐 (<CJK Ideograph>)
14138	0x80FE	胾 (<CJK Ideograph>)
14139	0x80D4	胔 (<CJK Ideograph>)
14140	0x8143	腃 (<CJK Ideograph>)
14141	0x814A	腊 (<CJK Ideograph>)
14142	0x8152	腒 (<CJK Ideograph>)
14143	0x814F	腏 (<CJK Ideograph>)
14144	0x8147	腇 (<CJK Ideograph>)
14145	0x813D	脽 (<CJK Ideograph>)
14146	0x814D	腍 (<CJK Ideograph>)
14147	0x813A	脺 (<CJK Ideograph>)
14148	0x81E6	臦 (<CJK Ideograph>)
14149	0x81EE	臮 (<CJK Ideograph>)
14150	0x81F7	臷 (<CJK Ideograph>)
14151	0x81F8	臸 (<CJK Ideograph>)
14152	0x81F9	臹 (<CJK Ideograph>)
14153	0x8204	舄 (<CJK Ideograph>)
14154	0x823C	舼 (<CJK Ideograph>)
14155	0x823D	舽 (<CJK Ideograph>)
14156	0x823F	舿 (<CJK Ideograph>)
14157	0x8275	艵 (<CJK Ideograph>)
14158	0x833B	茻 (<CJK Ideograph>)
14159	0x83CF	菏 (<CJK Ideograph>)
14160	0x83F9	菹 (<CJK Ideograph>)
14161	0x8423	萣 (<CJK Ideograph>)
14162	0x83C0	菀 (<CJK Ideograph>)
14163	0x83E8	菨 (<CJK Ideograph>)
14164	0x8412	萒 (<CJK Ideograph>)
14165	0x83E7	菧 (<CJK Ideograph>)
14166	0x83E4	菤 (<CJK Ideograph>)
14167	0x83FC	菼 (<CJK Ideograph>)
14168	0x83F6	菶 (<CJK Ideograph>)
14169	0x8410	萐 (<CJK Ideograph>)
14170	0x83C6	菆 (<CJK Ideograph>)
14171	0x83C8	菈 (<CJK Ideograph>)
14172	0x83EB	菫 (<CJK Ideograph>)
14173	0x83E3	菣 (<CJK Ideograph>)
14174	0x83BF	莿 (<CJK Ideograph>)
14175	0x8401	萁 (<CJK Ideograph>)
14176	0x83DD	菝 (<CJK Ideograph>)
14177	0x83E5	菥 (<CJK Ideograph>)
14178	0x83D8	菘 (<CJK Ideograph>)
14179	0x83FF	菿 (<CJK Ideograph>)
14180	0x83E1	菡 (<CJK Ideograph>)
14181	0x83CB	菋 (<CJK Ideograph>)
14182	0x83CE	菎 (<CJK Ideograph>)
14183	0x83D6	菖 (<CJK Ideograph>)
14184	0x83F5	菵 (<CJK Ideograph>)
14185	0x83C9	菉 (<CJK Ideograph>)
14186	0x8409	萉 (<CJK Ideograph>)
14187	0x840F	萏 (<CJK Ideograph>)
14188	0x83DE	菞 (<CJK Ideograph>)
14189	0x8411	萑 (<CJK Ideograph>)
14190	0x8406	萆 (<CJK Ideograph>)
14191	0x83C2	菂 (<CJK Ideograph>)
14192	0x83F3	菳 (<CJK Ideograph>)
14193	0x83D5	菕 (<CJK Ideograph>)
14194	0x83FA	菺 (<CJK Ideograph>)
14195	0x83C7	菇 (<CJK Ideograph>)
14196	0x83D1	菑 (<CJK Ideograph>)
14197	0x83EA	菪 (<CJK Ideograph>)
14198	0x8413	萓 (<CJK Ideograph>)
14199	0x83C3	菃 (<CJK Ideograph>)
14200	0x83EC	菬 (<CJK Ideograph>)
14201	0x83EE	菮 (<CJK Ideograph>)
14202	0x83C4	菄 (<CJK Ideograph>)
14203	0x83FB	菻 (<CJK Ideograph>)
14204	0x83D7	菗 (<CJK Ideograph>)
14205	0x83E2	菢 (<CJK Ideograph>)
14206	0x841B	萛 (<CJK Ideograph>)
14207	0x83DB	菛 (<CJK Ideograph>)
14208	0x83FE	菾 (<CJK Ideograph>)
14209	0x86D8	蛘 (<CJK Ideograph>)
14210	0x86E2	蛢 (<CJK Ideograph>)
14211	0x86E6	蛦 (<CJK Ideograph>)
14212	0x86D3	蛓 (<CJK Ideograph>)
14213	0x86E3	蛣 (<CJK Ideograph>)
14214	0x86DA	蛚 (<CJK Ideograph>)
14215	0x86EA	蛪 (<CJK Ideograph>)
14216	0x86DD	蛝 (<CJK Ideograph>)
14217	0x86EB	蛫 (<CJK Ideograph>)
14218	0x86DC	蛜 (<CJK Ideograph>)
14219	0x86EC	蛬 (<CJK Ideograph>)
14220	0x86E9	蛩 (<CJK Ideograph>)
14221	0x86D7	蛗 (<CJK Ideograph>)
14222	0x86E8	蛨 (<CJK Ideograph>)
14223	0x86D1	蛑 (<CJK Ideograph>)
14224	0x8848	衈 (<CJK Ideograph>)
14225	0x8856	衖 (<CJK Ideograph>)
14226	0x8855	衕 (<CJK Ideograph>)
14227	0x88BA	袺 (<CJK Ideograph>)
14228	0x88D7	裗 (<CJK Ideograph>)
14229	0x88B9	袹 (<CJK Ideograph>)
14230	0x88B8	袸 (<CJK Ideograph>)
14231	0x88C0	裀 (<CJK Ideograph>)
14232	0x88BE	袾 (<CJK Ideograph>)
14233	0x88B6	袶 (<CJK Ideograph>)
14234	0x88BC	袼 (<CJK Ideograph>)
14235	0x88B7	袷 (<CJK Ideograph>)
14236	0x88BD	袽 (<CJK Ideograph>)
14237	0x88B2	袲 (<CJK Ideograph>)
14238	0x8901	褁 (<CJK Ideograph>)
14239	0x88C9	裉 (<CJK Ideograph>)
14240	0x8995	覕 (<CJK Ideograph>)
14241	0x8998	覘 (<CJK Ideograph>)
14242	0x8997	覗 (<CJK Ideograph>)
14243	0x89DD	觝 (<CJK Ideograph>)
14244	0x89DA	觚 (<CJK Ideograph>)
14245	0x89DB	觛 (<CJK Ideograph>)
14246	0x8A4E	詎 (<CJK Ideograph>)
14247	0x8A4D	詍 (<CJK Ideograph>)
14248	0x8A39	訹 (<CJK Ideograph>)
14249	0x8A59	詙 (<CJK Ideograph>)
14250	0x8A40	詀 (<CJK Ideograph>)
14251	0x8A57	詗 (<CJK Ideograph>)
14252	0x8A58	詘 (<CJK Ideograph>)
14253	0x8A44	詄 (<CJK Ideograph>)
14254	0x8A45	詅 (<CJK Ideograph>)
14255	0x8A52	詒 (<CJK Ideograph>)
14256	0x8A48	詈 (<CJK Ideograph>)
14257	0x8A51	詑 (<CJK Ideograph>)
14258	0x8A4A	詊 (<CJK Ideograph>)
14259	0x8A4C	詌 (<CJK Ideograph>)
14260	0x8A4F	詏 (<CJK Ideograph>)
14261	0x8C5F	豟 (<CJK Ideograph>)
14262	0x8C81	貁 (<CJK Ideograph>)
14263	0x8C80	貀 (<CJK Ideograph>)
14264	0x8CBA	貺 (<CJK Ideograph>)
14265	0x8CBE	貾 (<CJK Ideograph>)
14266	0x8CB0	貰 (<CJK Ideograph>)
14267	0x8CB9	貹 (<CJK Ideograph>)
14268	0x8CB5	貵 (<CJK Ideograph>)
14269	0x8D84	趄 (<CJK Ideograph>)
14270	0x8D80	趀 (<CJK Ideograph>)
14271	0x8D89	趉 (<CJK Ideograph>)
14272	0x8DD8	跘 (<CJK Ideograph>)
14273	0x8DD3	跓 (<CJK Ideograph>)
14274	0x8DCD	跍 (<CJK Ideograph>)
14275	0x8DC7	跇 (<CJK Ideograph>)
14276	0x8DD6	跖 (<CJK Ideograph>)
14277	0x8DDC	跜 (<CJK Ideograph>)
14278	0x8DCF	跏 (<CJK Ideograph>)
14279	0x8DD5	跕 (<CJK Ideograph>)
14280	0x8DD9	跙 (<CJK Ideograph>)
14281	0x8DC8	跈 (<CJK Ideograph>)
14282	0x8DD7	跗 (<CJK Ideograph>)
14283	0x8DC5	跅 (<CJK Ideograph>)
14284	0x8EEF	軯 (<CJK Ideograph>)
14285	0x8EF7	軷 (<CJK Ideograph>)
14286	0x8EFA	軺 (<CJK Ideograph>)
"#

/-- encoding_tables/whatwg/index-big5.txt:13102-13258 -/
noncomputable def index91 : List Text := lines! r#"14287	0x8EF9	軹 (<CJK Ideograph>)
14288	0x8EE6	軦 (<CJK Ideograph>)
14289	0x8EEE	軮 (<CJK Ideograph>)
14290	0x8EE5	軥 (<CJK Ideograph>)
14291	0x8EF5	軵 (<CJK Ideograph>)
14292	0x8EE7	軧 (<CJK Ideograph>)
14293	0x8EE8	軨 (<CJK Ideograph>)
14294	0x8EF6	軶 (<CJK Ideograph>)
14295	0x8EEB	軫 (<CJK Ideograph>)
14296	0x8EF1	軱 (<CJK Ideograph>)
14297	0x8EEC	軬 (<CJK Ideograph>)
14298	0x8EF4	軴 (<CJK Ideograph>)
14299	0x8EE9	軩 (<CJK Ideograph>)
14300	0x902D	逭 (<CJK Ideograph>)
14301	0x9034	逴 (<CJK Ideograph>)
14302	0x902F	逯 (<CJK Ideograph>)
14303	0x9106	鄆 (<CJK Ideograph>)
14304	0x912C	鄬 (<CJK Ideograph>)
14305	0x9104	鄄 (<CJK Ideograph>)
14306	0x90FF	郿 (<CJK Ideograph>)
14307	0x90FC	郼 (<CJK Ideograph>)
14308	0x9108	鄈 (<CJK Ideograph>)
14309	0x90F9	郹 (<CJK Ideograph>)
14310	0x90FB	郻 (<CJK Ideograph>)
14311	0x9101	鄁 (<CJK Ideograph>)
14312	0x9100	鄀 (<CJK Ideograph>)
14313	0x9107	鄇 (<CJK Ideograph>)
14314	0x9105	鄅 (<CJK Ideograph>)
14315	0x9103	鄃 (<CJK Ideograph>)
14316	0x9161	酡 (<CJK Ideograph>)
14317	0x9164	酤 (<CJK Ideograph>)
14318	0x915F	酟 (<CJK Ideograph>)
14319	0x9162	酢 (<CJK Ideograph>)
14320	0x9160	酠 (<CJK Ideograph>)
14321	0x9201	鈁 (<CJK Ideograph>)
14322	0x920A	鈊 (<CJK Ideograph>)
14323	0x9225	鈥 (<CJK Ideograph>)
14324	0x9203	鈃 (<CJK Ideograph>)
14325	0x921A	鈚 (<CJK Ideograph>)
14326	0x9226	鈦 (<CJK Ideograph>)
14327	0x920F	鈏 (<CJK Ideograph>)
14328	0x920C	鈌 (<CJK Ideograph>)
14329	0x9200	鈀 (<CJK Ideograph>)
14330	0x9212	鈒 (<CJK Ideograph>)
14331	0x91FF	釿 (<CJK Ideograph>)
14332	0x91FD	釽 (<CJK Ideograph>)
14333	0x9206	鈆 (<CJK Ideograph>)
14334	0x9204	鈄 (<CJK Ideograph>)
14335	0x9227	鈧 (<CJK Ideograph>)
14336	0x9202	鈂 (<CJK Ideograph>)
14337	0x921C	鈜 (<CJK Ideograph>)
14338	0x9224	鈤 (<CJK Ideograph>)
14339	0x9219	鈙 (<CJK Ideograph>)
14340	0x9217	鈗 (<CJK Ideograph>)
14341	0x9205	鈅 (<CJK Ideograph>)
14342	0x9216	鈖 (<CJK Ideograph>)
14343	0x957B	镻 (<CJK Ideograph>)
14344	0x958D	閍 (<CJK Ideograph>)
14345	0x958C	閌 (<CJK Ideograph>)
14346	0x9590	閐 (<CJK Ideograph>)
14347	0x9687	隇 (<CJK Ideograph>)
14348	0x967E	陾 (<CJK Ideograph>)
14349	0x9688	隈 (<CJK Ideograph>)
14350	0x9689	隉 (<CJK Ideograph>)
14351	0x9683	隃 (<CJK Ideograph>)
14352	0x9680	隀 (<CJK Ideograph>)
14353	0x96C2	雂 (<CJK Ideograph>)
14354	0x96C8	雈 (<CJK Ideograph>)
14355	0x96C3	雃 (<CJK Ideograph>)
14356	0x96F1	雱 (<CJK Ideograph>)
14357	0x96F0	雰 (<CJK Ideograph>)
14358	0x976C	靬 (<CJK Ideograph>)
14359	0x9770	靰 (<CJK Ideograph>)
14360	0x976E	靮 (<CJK Ideograph>)
14361	0x9807	頇 (<CJK Ideograph>)
14362	0x98A9	颩 (<CJK Ideograph>)
14363	0x98EB	飫 (<CJK Ideograph>)
14364	0x9CE6	鳦 (<CJK Ideograph>)
14365	0x9EF9	黹 (<CJK Ideograph>)
14366	0x4E83	亃 (<CJK Ideograph>)
14367	0x4E84	亄 (<CJK Ideograph>)
14368	0x4EB6	亶 (<CJK Ideograph>)
14369	0x50BD	傽 (<CJK Ideograph>)
14370	0x50BF	傿 (<CJK Ideograph>)
14371	0x50C6	僆 (<CJK Ideograph>)
14372	0x50AE	傮 (<CJK Ideograph>)
14373	0x50C4	僄 (<CJK Ideograph>)
14374	0x50CA	僊 (<CJK Ideograph>)
14375	0x50B4	傴 (<CJK Ideograph>)
14376	0x50C8	僈 (<CJK Ideograph>)
14377	0x50C2	僂 (<CJK Ideograph>)
14378	0x50B0	傰 (<CJK Ideograph>)
14379	0x50C1	僁 (<CJK Ideograph>)
14380	0x50BA	傺 (<CJK Ideograph>)
14381	0x50B1	傱 (<CJK Ideograph>)
14382	0x50CB	僋 (<CJK Ideograph>)
14383	0x50C9	僉 (<CJK Ideograph>)
14384	0x50B6	傶 (<CJK Ideograph>)
14385	0x50B8	傸 (<CJK Ideograph>)
14386	0x51D7	凗 (<CJK Ideograph>)
14387	0x527A	剺 (<CJK Ideograph>)
14388	0x5278	剸 (<CJK Ideograph>)
14389	0x527B	剻 (<CJK Ideograph>)
14390	0x527C	剼 (<CJK Ideograph>)
14391	0x55C3	嗃 (<CJK Ideograph>)
14392	0x55DB	嗛 (<CJK Ideograph>)
14393	0x55CC	嗌 (<CJK Ideograph>)
14394	0x55D0	嗐 (<CJK Ideograph>)
14395	0x55CB	嗋 (<CJK Ideograph>)
14396	0x55CA	嗊 (<CJK Ideograph>)
14397	0x55DD	嗝 (<CJK Ideograph>)
14398	0x55C0	嗀 (<CJK Ideograph>)
14399	0x55D4	嗔 (<CJK Ideograph>)
14400	0x55C4	嗄 (<CJK Ideograph>)
14401	0x55E9	嗩 (<CJK Ideograph>)
14402	0x55BF	喿 (<CJK Ideograph>)
14403	0x55D2	嗒 (<CJK Ideograph>)
14404	0x558D	喍 (<CJK Ideograph>)
14405	0x55CF	嗏 (<CJK Ideograph>)
14406	0x55D5	嗕 (<CJK Ideograph>)
14407	0x55E2	嗢 (<CJK Ideograph>)
14408	0x55D6	嗖 (<CJK Ideograph>)
14409	0x55C8	嗈 (<CJK Ideograph>)
14410	0x55F2	嗲 (<CJK Ideograph>)
14411	0x55CD	嗍 (<CJK Ideograph>)
14412	0x55D9	嗙 (<CJK Ideograph>)
14413	0x55C2	嗂 (<CJK Ideograph>)
14414	0x5714	圔 (<CJK Ideograph>)
14415	0x5853	塓 (<CJK Ideograph>)
14416	0x5868	塨 (<CJK Ideograph>)
14417	0x5864	塤 (<CJK Ideograph>)
14418	0x584F	塏 (<CJK Ideograph>)
14419	0x584D	塍 (<CJK Ideograph>)
14420	0x5849	塉 (<CJK Ideograph>)
14421	0x586F	塯 (<CJK Ideograph>)
14422	0x5855	塕 (<CJK Ideograph>)
14423	0x584E	塎 (<CJK Ideograph>)
14424	0x585D	塝 (<CJK Ideograph>)
14425	0x5859	塙 (<CJK Ideograph>)
14426	0x5865	塥 (<CJK Ideograph>)
14427	0x585B	塛 (<CJK Ideograph>)
14428	0x583D	堽 (<CJK Ideograph>)
14429	0x5863	塣 (<CJK Ideograph>)
14430	0x5871	塱 (<CJK Ideograph>)
14431	0x58FC	壼 (<CJK Ideograph>)
14432	0x5AC7	嫇 (<CJK Ideograph>)
14433	0x5AC4	嫄 (<CJK Ideograph>)
14434	0x5ACB	嫋 (<CJK Ideograph>)
14435	0x5ABA	媺 (<CJK Ideograph>)
14436	0x5AB8	媸 (<CJK Ideograph>)
14437	0x5AB1	媱 (<CJK Ideograph>)
14438	0x5AB5	媵 (<CJK Ideograph>)
14439	0x5AB0	媰 (<CJK Ideograph>)
14440	0x5ABF	媿 (<CJK Ideograph>)
14441	0x5AC8	嫈 (<CJK Ideograph>)
14442	0x5ABB	媻 (<CJK Ideograph>)
14443	0x5AC6	嫆 (<CJK Ideograph>)
"#

/-- encoding_tables/whatwg/index-big5.txt:13259-13415 -/
noncomputable def index92 : List Text := lines! r#"14444	0x5AB7	媷 (<CJK Ideograph>)
14445	0x5AC0	嫀 (<CJK Ideograph>)
14446	0x5ACA	嫊 (<CJK Ideograph>)
14447	0x5AB4	媴 (<CJK Ideograph>)
14448	0x5AB6	媶 (<CJK Ideograph>)
14449	0x5ACD	嫍 (<CJK Ideograph>)
14450	0x5AB9	媹 (<CJK Ideograph>)
14451	0x5A90	媐 (<CJK Ideograph>)
14452	0x5BD6	寖 (<CJK Ideograph>)
14453	0x5BD8	寘 (<CJK Ideograph>)
14454	0x5BD9	寙 (<CJK Ideograph>)
14455	0x5C1F	尟 (<CJK Ideograph>)
14456	0x5C33	尳 (<CJK Ideograph>)
14457	0x5D71	嵱 (<CJK Ideograph>)
14458	0x5D63	嵣 (<CJK Ideograph>)
14459	0x5D4A	嵊 (<CJK Ideograph>)
14460	0x5D65	嵥 (<CJK Ideograph>)
14461	0x5D72	嵲 (<CJK Ideograph>)
14462	0x5D6C	嵬 (<CJK Ideograph>)
14463	0x5D5E	嵞 (<CJK Ideograph>)
14464	0x5D68	嵨 (<CJK Ideograph>)
14465	0x5D67	嵧 (<CJK Ideograph>)
14466	0x5D62	嵢 (<CJK Ideograph>)
14467	0x5DF0	巰 (<CJK Ideograph>)
14468	0x5E4F	幏 (<CJK Ideograph>)
14469	0x5E4E	幎 (<CJK Ideograph>)
14470	0x5E4A	幊 (<CJK Ideograph>)
14471	0x5E4D	幍 (<CJK Ideograph>)
14472	0x5E4B	幋 (<CJK Ideograph>)
14473	0x5EC5	廅 (<CJK Ideograph>)
14474	0x5ECC	廌 (<CJK Ideograph>)
14475	0x5EC6	廆 (<CJK Ideograph>)
14476	0x5ECB	廋 (<CJK Ideograph>)
14477	0x5EC7	廇 (<CJK Ideograph>)
14478	0x5F40	彀 (<CJK Ideograph>)
14479	0x5FAF	徯 (<CJK Ideograph>)
14480	0x5FAD	徭 (<CJK Ideograph>)
14481	0x60F7	惷 (<CJK Ideograph>)
14482	0x6149	慉 (<CJK Ideograph>)
14483	0x614A	慊 (<CJK Ideograph>)
14484	0x612B	愫 (<CJK Ideograph>)
14485	0x6145	慅 (<CJK Ideograph>)
14486	0x6136	愶 (<CJK Ideograph>)
14487	0x6132	愲 (<CJK Ideograph>)
14488	0x612E	愮 (<CJK Ideograph>)
14489	0x6146	慆 (<CJK Ideograph>)
14490	0x612F	愯 (<CJK Ideograph>)
14491	0x614F	慏 (<CJK Ideograph>)
14492	0x6129	愩 (<CJK Ideograph>)
14493	0x6140	慀 (<CJK Ideograph>)
14494	0x6220	戠 (<CJK Ideograph>)
14495	0x9168	酨 (<CJK Ideograph>)
14496	0x6223	戣 (<CJK Ideograph>)
14497	0x6225	戥 (<CJK Ideograph>)
14498	0x6224	戤 (<CJK Ideograph>)
14499	0x63C5	揅 (<CJK Ideograph>)
14500	0x63F1	揱 (<CJK Ideograph>)
14501	0x63EB	揫 (<CJK Ideograph>)
14502	0x6410	搐 (<CJK Ideograph>)
14503	0x6412	搒 (<CJK Ideograph>)
14504	0x6409	搉 (<CJK Ideograph>)
14505	0x6420	搠 (<CJK Ideograph>)
14506	0x6424	搤 (<CJK Ideograph>)
14507	0x6433	搳 (<CJK Ideograph>)
14508	0x6443	摃 (<CJK Ideograph>)
14509	0x641F	搟 (<CJK Ideograph>)
14510	0x6415	搕 (<CJK Ideograph>)
14511	0x6418	搘 (<CJK Ideograph>)
14512	0x6439	搹 (<CJK Ideograph>)
14513	0x6437	搷 (<CJK Ideograph>)
14514	0x6422	搢 (<CJK Ideograph>)
14515	0x6423	搣 (<CJK Ideograph>)
14516	0x640C	搌 (<CJK Ideograph>)
14517	0x6426	搦 (<CJK Ideograph>)
14518	0x6430	搰 (<CJK Ideograph>)
14519	0x6428	搨 (<CJK Ideograph>)
14520	0x6441	摁 (<CJK Ideograph>)
14521	0x6435	搵 (<CJK Ideograph>)
14522	0x642F	搯 (<CJK Ideograph>)
14523	0x640A	搊 (<CJK Ideograph>)
14524	0x641A	搚 (<CJK Ideograph>)
14525	0x6440	摀 (<CJK Ideograph>)
14526	0x6425	搥 (<CJK Ideograph>)
14527	0x6427	搧 (<CJK Ideograph>)
14528	0x640B	搋 (<CJK Ideograph>)
14529	0x63E7	揧 (<CJK Ideograph>)
14530	0x641B	搛 (<CJK Ideograph>)
14531	0x642E	搮 (<CJK Ideograph>)
14532	0x6421	搡 (<CJK Ideograph>)
14533	0x640E	搎 (<CJK Ideograph>)
14534	0x656F	敯 (<CJK Ideograph>)
14535	0x6592	斒 (<CJK Ideograph>)
14536	0x65D3	旓 (<CJK Ideograph>)
14537	0x6686	暆 (<CJK Ideograph>)
14538	0x668C	暌 (<CJK Ideograph>)
14539	0x6695	暕 (<CJK Ideograph>)
14540	0x6690	暐 (<CJK Ideograph>)
14541	0x668B	暋 (<CJK Ideograph>)
14542	0x668A	暊 (<CJK Ideograph>)
14543	0x6699	暙 (<CJK Ideograph>)
14544	0x6694	暔 (<CJK Ideograph>)
14545	0x6678	晸 (<CJK Ideograph>)
14546	0x6720	朠 (<CJK Ideograph>)
14547	0x6966	楦 (<CJK Ideograph>)
14548	0x695F	楟 (<CJK Ideograph>)
14549	0x6938	椸 (<CJK Ideograph>)
14550	0x694E	楎 (<CJK Ideograph>)
14551	0x6962	楢 (<CJK Ideograph>)
14552	0x6971	楱 (<CJK Ideograph>)
14553	0x693F	椿 (<CJK Ideograph>)
14554	0x6945	楅 (<CJK Ideograph>)
14555	0x696A	楪 (<CJK Ideograph>)
14556	0x6939	椹 (<CJK Ideograph>)
14557	0x6942	楂 (<CJK Ideograph>)
14558	0x6957	楗 (<CJK Ideograph>)
14559	0x6959	楙 (<CJK Ideograph>)
14560	0x697A	楺 (<CJK Ideograph>)
14561	0x6948	楈 (<CJK Ideograph>)
14562	0x6949	楉 (<CJK Ideograph>)
14563	0x6935	椵 (<CJK Ideograph>)
14564	0x696C	楬 (<CJK Ideograph>)
14565	0x6933	椳 (<CJK Ideograph>)
14566	0x693D	椽 (<CJK Ideograph>)
14567	0x6965	楥 (<CJK Ideograph>)
14568	0x68F0	棰 (<CJK Ideograph>)
14569	0x6978	楸 (<CJK Ideograph>)
14570	0x6934	椴 (<CJK Ideograph>)
14571	0x6969	楩 (<CJK Ideograph>)
14572	0x6940	楀 (<CJK Ideograph>)
14573	0x696F	楯 (<CJK Ideograph>)
14574	0x6944	楄 (<CJK Ideograph>)
14575	0x6976	楶 (<CJK Ideograph>)
14576	0x6958	楘 (<CJK Ideograph>)
14577	0x6941	楁 (<CJK Ideograph>)
14578	0x6974	楴 (<CJK Ideograph>)
14579	0x694C	楌 (<CJK Ideograph>)
14580	0x693B	椻 (<CJK Ideograph>)
14581	0x694B	楋 (<CJK Ideograph>)
14582	0x6937	椷 (<CJK Ideograph>)
14583	0x695C	楜 (<CJK Ideograph>)
14584	0x694F	楏 (<CJK Ideograph>)
14585	0x6951	楑 (<CJK Ideograph>)
14586	0x6932	椲 (<CJK Ideograph>)
14587	0x6952	楒 (<CJK Ideograph>)
14588	0x692F	椯 (<CJK Ideograph>)
14589	0x697B	楻 (<CJK Ideograph>)
14590	0x693C	椼 (<CJK Ideograph>)
14591	0x6B46	歆 (<CJK Ideograph>)
14592	0x6B45	歅 (<CJK Ideograph>)
14593	0x6B43	歃 (<CJK Ideograph>)
14594	0x6B42	歂 (<CJK Ideograph>)
14595	0x6B48	歈 (<CJK Ideograph>)
14596	0x6B41	歁 (<CJK Ideograph>)
14597	0x6B9B	殛 (<CJK Ideograph>)
14598	0xFA0D	嗀 (CJK COMPATIBILITY IDEOGRAPH-FA0D)
14599	0x6BFB	毻 (<CJK Ideograph>)
14600	0x6BFC	毼 (<CJK Ideograph>)
"#

/-- encoding_tables/whatwg/index-big5.txt:13416-13572 -/
noncomputable def index93 : List Text := lines! r#"14601	0x6BF9	毹 (<CJK Ideograph>)
14602	0x6BF7	毷 (<CJK Ideograph>)
14603	0x6BF8	毸 (<CJK Ideograph>)
14604	0x6E9B	溛 (<CJK Ideograph>)
14605	0x6ED6	滖 (<CJK Ideograph>)
14606	0x6EC8	滈 (<CJK Ideograph>)
14607	0x6E8F	溏 (<CJK Ideograph>)
14608	0x6EC0	滀 (<CJK Ideograph>)
14609	0x6E9F	溟 (<CJK Ideograph>)
14610	0x6E93	溓 (<CJK Ideograph>)
14611	0x6E94	溔 (<CJK Ideograph>)
14612	0x6EA0	溠 (<CJK Ideograph>)
14613	0x6EB1	溱 (<CJK Ideograph>)
14614	0x6EB9	溹 (<CJK Ideograph>)
14615	0x6EC6	滆 (<CJK Ideograph>)
14616	0x6ED2	滒 (<CJK Ideograph>)
14617	0x6EBD	溽 (<CJK Ideograph>)
14618	0x6EC1	滁 (<CJK Ideograph>)
14619	0x6E9E	溞 (<CJK Ideograph>)
14620	0x6EC9	滉 (<CJK Ideograph>)
14621	0x6EB7	溷 (<CJK Ideograph>)
14622	0x6EB0	溰 (<CJK Ideograph>)
14623	0x6ECD	滍 (<CJK Ideograph>)
14624	0x6EA6	溦 (<CJK Ideograph>)
14625	0x6ECF	滏 (<CJK Ideograph>)
14626	0x6EB2	溲 (<CJK Ideograph>)
14627	0x6EBE	溾 (<CJK Ideograph>)
14628	0x6EC3	滃 (<CJK Ideograph>)
14629	0x6EDC	滜 (<CJK Ideograph>)
14630	0x6ED8	滘 (<CJK Ideograph>)
14631	0x6E99	溙 (<CJK Ideograph>)
14632	0x6E92	溒 (<CJK Ideograph>)
14633	0x6E8E	溎 (<CJK Ideograph>)
14634	0x6E8D	溍 (<CJK Ideograph>)
14635	0x6EA4	溤 (<CJK Ideograph>)
14636	0x6EA1	溡 (<CJK Ideograph>)
14637	0x6EBF	溿 (<CJK Ideograph>)
14638	0x6EB3	溳 (<CJK Ideograph>)
14639	0x6ED0	滐 (<CJK Ideograph>)
14640	0x6ECA	滊 (<CJK Ideograph>)
14641	0x6E97	溗 (<CJK Ideograph>)
14642	0x6EAE	溮 (<CJK Ideograph>)
14643	0x6EA3	溣 (<CJK Ideograph>)
14644	0x7147	煇 (<CJK Ideograph>)
14645	0x7154	煔 (<CJK Ideograph>)
14646	0x7152	煒 (<CJK Ideograph>)
14647	0x7163	煣 (<CJK Ideograph>)
14648	0x7160	煠 (<CJK Ideograph>)
14649	0x7141	煁 (<CJK Ideograph>)
14650	0x715D	煝 (<CJK Ideograph>)
14651	0x7162	煢 (<CJK Ideograph>)
14652	0x7172	煲 (<CJK Ideograph>)
14653	0x7178	煸 (<CJK Ideograph>)
14654	0x716A	煪 (<CJK Ideograph>)
14655	0x7161	煡 (<CJK Ideograph>)
14656	0x7142	煂 (<CJK Ideograph>)
14657	0x7158	煘 (<CJK Ideograph>)
14658	0x7143	煃 (<CJK Ideograph>)
14659	0x714B	煋 (<CJK Ideograph>)
14660	0x7170	煰 (<CJK Ideograph>)
14661	0x715F	煟 (<CJK Ideograph>)
14662	0x7150	煐 (<CJK Ideograph>)
14663	0x7153	煓 (<CJK Ideograph>)
14664	0x7144	煄 (<CJK Ideograph>)
14665	0x714D	煍 (<CJK Ideograph>)
14666	0x715A	煚 (<CJK Ideograph>)
14667	0x724F	牏 (<CJK Ideograph>)
14668	0x728D	犍 (<CJK Ideograph>)
14669	0x728C	犌 (<CJK Ideograph>)
14670	0x7291	犑 (<CJK Ideograph>)
14671	0x7290	犐 (<CJK Ideograph>)
14672	0x728E	犎 (<CJK Ideograph>)
14673	0x733C	猼 (<CJK Ideograph>)
14674	0x7342	獂 (<CJK Ideograph>)
14675	0x733B	猻 (<CJK Ideograph>)
14676	0x733A	猺 (<CJK Ideograph>)
14677	0x7340	獀 (<CJK Ideograph>)
14678	0x734A	獊 (<CJK Ideograph>)
14679	0x7349	獉 (<CJK Ideograph>)
14680	0x7444	瑄 (<CJK Ideograph>)
14681	0x744A	瑊 (<CJK Ideograph>)
14682	0x744B	瑋 (<CJK Ideograph>)
14683	0x7452	瑒 (<CJK Ideograph>)
14684	0x7451	瑑 (<CJK Ideograph>)
14685	0x7457	瑗 (<CJK Ideograph>)
14686	0x7440	瑀 (<CJK Ideograph>)
14687	0x744F	瑏 (<CJK Ideograph>)
14688	0x7450	瑐 (<CJK Ideograph>)
14689	0x744E	瑎 (<CJK Ideograph>)
14690	0x7442	瑂 (<CJK Ideograph>)
14691	0x7446	瑆 (<CJK Ideograph>)
14692	0x744D	瑍 (<CJK Ideograph>)
14693	0x7454	瑔 (<CJK Ideograph>)
14694	0x74E1	瓡 (<CJK Ideograph>)
14695	0x74FF	瓿 (<CJK Ideograph>)
14696	0x74FE	瓾 (<CJK Ideograph>)
14697	0x74FD	瓽 (<CJK Ideograph>)
14698	0x751D	甝 (<CJK Ideograph>)
14699	0x7579	畹 (<CJK Ideograph>)
14700	0x7577	畷 (<CJK Ideograph>)
14701	0x6983	榃 (<CJK Ideograph>)
14702	0x75EF	痯 (<CJK Ideograph>)
14703	0x760F	瘏 (<CJK Ideograph>)
14704	0x7603	瘃 (<CJK Ideograph>)
14705	0x75F7	痷 (<CJK Ideograph>)
14706	0x75FE	痾 (<CJK Ideograph>)
14707	0x75FC	痼 (<CJK Ideograph>)
14708	0x75F9	痹 (<CJK Ideograph>)
14709	0x75F8	痸 (<CJK Ideograph>)
14710	0x7610	瘐 (<CJK Ideograph>)
14711	0x75FB	痻 (<CJK Ideograph>)
14712	0x75F6	痶 (<CJK Ideograph>)
14713	0x75ED	痭 (<CJK Ideograph>)
14714	0x75F5	痵 (<CJK Ideograph>)
14715	0x75FD	痽 (<CJK Ideograph>)
14716	0x7699	皙 (<CJK Ideograph>)
14717	0x76B5	皵 (<CJK Ideograph>)
14718	0x76DD	盝 (<CJK Ideograph>)
14719	0x7755	睕 (<CJK Ideograph>)
14720	0x775F	睟 (<CJK Ideograph>)
14721	0x7760	睠 (<CJK Ideograph>)
14722	0x7752	睒 (<CJK Ideograph>)
14723	0x7756	睖 (<CJK Ideograph>)
14724	0x775A	睚 (<CJK Ideograph>)
14725	0x7769	睩 (<CJK Ideograph>)
14726	0x7767	睧 (<CJK Ideograph>)
14727	0x7754	睔 (<CJK Ideograph>)
14728	0x7759	睙 (<CJK Ideograph>)
14729	0x776D	睭 (<CJK Ideograph>)
14730	0x77E0	矠 (<CJK Ideograph>)
14731	0x7887	碇 (<CJK Ideograph>)
14732	0x789A	碚 (<CJK Ideograph>)
14733	0x7894	碔 (<CJK Ideograph>)
14734	0x788F	碏 (<CJK Ideograph>)
14735	0x7884	碄 (<CJK Ideograph>)
14736	0x7895	碕 (<CJK Ideograph>)
14737	0x7885	碅 (<CJK Ideograph>)
14738	0x7886	碆 (<CJK Ideograph>)
14739	0x78A1	碡 (<CJK Ideograph>)
14740	0x7883	碃 (<CJK Ideograph>)
14741	0x7879	硹 (<CJK Ideograph>)
14742	0x7899	碙 (<CJK Ideograph>)
14743	0x7880	碀 (<CJK Ideograph>)
14744	0x7896	碖 (<CJK Ideograph>)
14745	0x787B	硻 (<CJK Ideograph>)
14746	0x797C	祼 (<CJK Ideograph>)
14747	0x7982	禂 (<CJK Ideograph>)
14748	0x797D	祽 (<CJK Ideograph>)
14749	0x7979	祹 (<CJK Ideograph>)
14750	0x7A11	稑 (<CJK Ideograph>)
14751	0x7A18	稘 (<CJK Ideograph>)
14752	0x7A19	稙 (<CJK Ideograph>)
14753	0x7A12	稒 (<CJK Ideograph>)
14754	0x7A17	稗 (<CJK Ideograph>)
14755	0x7A15	稕 (<CJK Ideograph>)
14756	0x7A22	稢 (<CJK Ideograph>)
14757	0x7A13	稓 (<CJK Ideograph>)
"#

/-- encoding_tables/whatwg/index-big5.txt:13573-13729 -/
noncomputable def index94 : List Text := lines! r#"14758	0x7A1B	稛 (<CJK Ideograph>)
14759	0x7A10	稐 (<CJK Ideograph>)
14760	0x7AA3	窣 (<CJK Ideograph>)
14761	0x7AA2	窢 (<CJK Ideograph>)
14762	0x7A9E	窞 (<CJK Ideograph>)
14763	0x7AEB	竫 (<CJK Ideograph>)
14764	0x7B66	筦 (<CJK Ideograph>)
14765	0x7B64	筤 (<CJK Ideograph>)
14766	0x7B6D	筭 (<CJK Ideograph>)
14767	0x7B74	筴 (<CJK Ideograph>)
14768	0x7B69	筩 (<CJK Ideograph>)
14769	0x7B72	筲 (<CJK Ideograph>)
14770	0x7B65	筥 (<CJK Ideograph>)
14771	0x7B73	筳 (<CJK Ideograph>)
14772	0x7B71	筱 (<CJK Ideograph>)
14773	0x7B70	筰 (<CJK Ideograph>)
14774	0x7B61	筡 (<CJK Ideograph>)
14775	0x7B78	筸 (<CJK Ideograph>)
14776	0x7B76	筶 (<CJK Ideograph>)
14777	0x7B63	筣 (<CJK Ideograph>)
14778	0x7CB2	粲 (<CJK Ideograph>)
14779	0x7CB4	粴 (<CJK Ideograph>)
14780	0x7CAF	粯 (<CJK Ideograph>)
14781	0x7D88	綈 (<CJK Ideograph>)
14782	0x7D86	綆 (<CJK Ideograph>)
14783	0x7D80	綀 (<CJK Ideograph>)
14784	0x7D8D	綍 (<CJK Ideograph>)
14785	0x7D7F	絿 (<CJK Ideograph>)
14786	0x7D85	綅 (<CJK Ideograph>)
14787	0x7D7A	絺 (<CJK Ideograph>)
14788	0x7D8E	綎 (<CJK Ideograph>)
14789	0x7D7B	絻 (<CJK Ideograph>)
14790	0x7D83	綃 (<CJK Ideograph>)
14791	0x7D7C	絼 (<CJK Ideograph>)
14792	0x7D8C	綌 (<CJK Ideograph>)
14793	0x7D94	綔 (<CJK Ideograph>)
14794	0x7D84	綄 (<CJK Ideograph>)
14795	0x7D7D	絽 (<CJK Ideograph>)
14796	0x7D92	綒 (<CJK Ideograph>)
14797	0x7F6D	罭 (<CJK Ideograph>)
14798	0x7F6B	罫 (<CJK Ideograph>)
14799	0x7F67	罧 (<CJK Ideograph>)
14800	0x7F68	罨 (<CJK Ideograph>)
14801	0x7F6C	罬 (<CJK Ideograph>)
14802	0x7FA6	羦 (<CJK Ideograph>)
14803	0x7FA5	羥 (<CJK Ideograph>)
14804	0x7FA7	羧 (<CJK Ideograph>)
14805	0x7FDB	翛 (<CJK Ideograph>)
14806	0x7FDC	翜 (<CJK Ideograph>)
14807	0x8021	耡 (<CJK Ideograph>)
14808	0x8164	腤 (<CJK Ideograph>)
14809	0x8160	腠 (<CJK Ideograph>)
14810	0x8177	腷 (<CJK Ideograph>)
14811	0x815C	腜 (<CJK Ideograph>)
14812	0x8169	腩 (<CJK Ideograph>)
14813	0x815B	腛 (<CJK Ideograph>)
14814	0x8162	腢 (<CJK Ideograph>)
14815	0x8172	腲 (<CJK Ideograph>)
14816	0x6721	朡 (<CJK Ideograph>)
14817	0x815E	腞 (<CJK Ideograph>)
14818	0x8176	腶 (<CJK Ideograph>)
14819	0x8167	腧 (<CJK Ideograph>)
14820	0x816F	腯 (<CJK Ideograph>)
14821	0x8144	腄 (<CJK Ideograph>)
14822	0x8161	腡 (<CJK Ideograph>)
14823	0x821D	舝 (<CJK Ideograph>)
14824	0x8249	艉 (<CJK Ideograph>)
14825	0x8244	艄 (<CJK Ideograph>)
14826	0x8240	艀 (<CJK Ideograph>)
14827	0x8242	艂 (<CJK Ideograph>)
14828	0x8245	艅 (<CJK Ideograph>)
14829	0x84F1	蓱 (<CJK Ideograph>)
14830	0x843F	萿 (<CJK Ideograph>)
14831	0x8456	葖 (<CJK Ideograph>)
14832	0x8476	葶 (<CJK Ideograph>)
14833	0x8479	葹 (<CJK Ideograph>)
14834	0x848F	蒏 (<CJK Ideograph>)
14835	0x848D	蒍 (<CJK Ideograph>)
14836	0x8465	葥 (<CJK Ideograph>)
14837	0x8451	葑 (<CJK Ideograph>)
14838	0x8440	葀 (<CJK Ideograph>)
14839	0x8486	蒆 (<CJK Ideograph>)
14840	0x8467	葧 (<CJK Ideograph>)
14841	0x8430	萰 (<CJK Ideograph>)
14842	0x844D	葍 (<CJK Ideograph>)
14843	0x847D	葽 (<CJK Ideograph>)
14844	0x845A	葚 (<CJK Ideograph>)
14845	0x8459	葙 (<CJK Ideograph>)
14846	0x8474	葴 (<CJK Ideograph>)
14847	0x8473	葳 (<CJK Ideograph>)
14848	0x845D	葝 (<CJK Ideograph>)
14849	0x8507	蔇 (<CJK Ideograph>)
14850	0x845E	葞 (<CJK Ideograph>)
14851	0x8437	萷 (<CJK Ideograph>)
14852	0x843A	萺 (<CJK Ideograph>)
14853	0x8434	萴 (<CJK Ideograph>)
14854	0x847A	葺 (<CJK Ideograph>)
14855	0x8443	葃 (<CJK Ideograph>)
14856	0x8478	葸 (<CJK Ideograph>)
14857	0x8432	萲 (<CJK Ideograph>)
14858	0x8445	葅 (<CJK Ideograph>)
14859	0x8429	萩 (<CJK Ideograph>)
14860	0x83D9	菙 (<CJK Ideograph>)
14861	0x844B	葋 (<CJK Ideograph>)
14862	0x842F	萯 (<CJK Ideograph>)
14863	0x8442	葂 (<CJK Ideograph>)
14864	0x842D	萭 (<CJK Ideograph>)
14865	0x845F	葟 (<CJK Ideograph>)
14866	0x8470	葰 (<CJK Ideograph>)
14867	0x8439	萹 (<CJK Ideograph>)
14868	0x844E	葎 (<CJK Ideograph>)
14869	0x844C	葌 (<CJK Ideograph>)
14870	0x8452	葒 (<CJK Ideograph>)
14871	0x846F	葯 (<CJK Ideograph>)
14872	0x84C5	蓅 (<CJK Ideograph>)
14873	0x848E	蒎 (<CJK Ideograph>)
14874	0x843B	萻 (<CJK Ideograph>)
14875	0x8447	葇 (<CJK Ideograph>)
14876	0x8436	萶 (<CJK Ideograph>)
14877	0x8433	萳 (<CJK Ideograph>)
14878	0x8468	葨 (<CJK Ideograph>)
14879	0x847E	葾 (<CJK Ideograph>)
14880	0x8444	葄 (<CJK Ideograph>)
14881	0x842B	萫 (<CJK Ideograph>)
14882	0x8460	葠 (<CJK Ideograph>)
14883	0x8454	葔 (<CJK Ideograph>)
14884	0x846E	葮 (<CJK Ideograph>)
14885	0x8450	葐 (<CJK Ideograph>)
14886	0x870B	蜋 (<CJK Ideograph>)
14887	0x8704	蜄 (<CJK Ideograph>)
14888	0x86F7	蛷 (<CJK Ideograph>)
14889	0x870C	蜌 (<CJK Ideograph>)
14890	0x86FA	蛺 (<CJK Ideograph>)
14891	0x86D6	蛖 (<CJK Ideograph>)
14892	0x86F5	蛵 (<CJK Ideograph>)
14893	0x874D	蝍 (<CJK Ideograph>)
14894	0x86F8	蛸 (<CJK Ideograph>)
14895	0x870E	蜎 (<CJK Ideograph>)
14896	0x8709	蜉 (<CJK Ideograph>)
14897	0x8701	蜁 (<CJK Ideograph>)
14898	0x86F6	蛶 (<CJK Ideograph>)
14899	0x870D	蜍 (<CJK Ideograph>)
14900	0x8705	蜅 (<CJK Ideograph>)
14901	0x88D6	裖 (<CJK Ideograph>)
14902	0x88CB	裋 (<CJK Ideograph>)
14903	0x88CD	裍 (<CJK Ideograph>)
14904	0x88CE	裎 (<CJK Ideograph>)
14905	0x88DE	裞 (<CJK Ideograph>)
14906	0x88DB	裛 (<CJK Ideograph>)
14907	0x88DA	裚 (<CJK Ideograph>)
14908	0x88CC	裌 (<CJK Ideograph>)
14909	0x88D0	裐 (<CJK Ideograph>)
14910	0x8985	覅 (<CJK Ideograph>)
14911	0x899B	覛 (<CJK Ideograph>)
14912	0x89DF	觟 (<CJK Ideograph>)
14913	0x89E5	觥 (<CJK Ideograph>)
14914	0x89E4	觤 (<CJK Ideograph>)
"#

/-- encoding_tables/whatwg/index-big5.txt:13730-13886 -/
noncomputable def index95 : List Text := lines! r#"14915	0x89E1	觡 (<CJK Ideograph>)
14916	0x89E0	觠 (<CJK Ideograph>)
14917	0x89E2	觢 (<CJK Ideograph>)
14918	0x89DC	觜 (<CJK Ideograph>)
14919	0x89E6	触 (<CJK Ideograph>)
14920	0x8A76	詶 (<CJK Ideograph>)
14921	0x8A86	誆 (<CJK Ideograph>)
14922	0x8A7F	詿 (<CJK Ideograph>)
14923	0x8A61	詡 (<CJK Ideograph>)
14924	0x8A3F	訿 (<CJK Ideograph>)
14925	0x8A77	詷 (<CJK Ideograph>)
14926	0x8A82	誂 (<CJK Ideograph>)
14927	0x8A84	誄 (<CJK Ideograph>)
14928	0x8A75	詵 (<CJK Ideograph>)
14929	0x8A83	誃 (<CJK Ideograph>)
14930	0x8A81	誁 (<CJK Ideograph>)
14931	0x8A74	詴 (<CJK Ideograph>)
14932	0x8A7A	詺 (<CJK Ideograph>)
14933	0x8C3C	谼 (<CJK Ideograph>)
14934	0x8C4B	豋 (<CJK Ideograph>)
14935	0x8C4A	豊 (<CJK Ideograph>)
14936	0x8C65	豥 (<CJK Ideograph>)
14937	0x8C64	豤 (<CJK Ideograph>)
14938	0x8C66	豦 (<CJK Ideograph>)
14939	0x8C86	貆 (<CJK Ideograph>)
14940	0x8C84	貄 (<CJK Ideograph>)
14941	0x8C85	貅 (<CJK Ideograph>)
14942	0x8CCC	賌 (<CJK Ideograph>)
14943	0x8D68	赨 (<CJK Ideograph>)
14944	0x8D69	赩 (<CJK Ideograph>)
14945	0x8D91	趑 (<CJK Ideograph>)
14946	0x8D8C	趌 (<CJK Ideograph>)
14947	0x8D8E	趎 (<CJK Ideograph>)
14948	0x8D8F	趏 (<CJK Ideograph>)
14949	0x8D8D	趍 (<CJK Ideograph>)
14950	0x8D93	趓 (<CJK Ideograph>)
14951	0x8D94	趔 (<CJK Ideograph>)
14952	0x8D90	趐 (<CJK Ideograph>)
14953	0x8D92	趒 (<CJK Ideograph>)
14954	0x8DF0	跰 (<CJK Ideograph>)
14955	0x8DE0	跠 (<CJK Ideograph>)
14956	0x8DEC	跬 (<CJK Ideograph>)
14957	0x8DF1	跱 (<CJK Ideograph>)
14958	0x8DEE	跮 (<CJK Ideograph>)
14959	0x8DD0	跐 (<CJK Ideograph>)
14960	0x8DE9	跩 (<CJK Ideograph>)
14961	0x8DE3	跣 (<CJK Ideograph>)
14962	0x8DE2	跢 (<CJK Ideograph>)
14963	0x8DE7	跧 (<CJK Ideograph>)
14964	0x8DF2	跲 (<CJK Ideograph>)
14965	0x8DEB	跫 (<CJK Ideograph>)
14966	0x8DF4	跴 (<CJK Ideograph>)
14967	0x8F06	輆 (<CJK Ideograph>)
14968	0x8EFF	軿 (<CJK Ideograph>)
14969	0x8F01	輁 (<CJK Ideograph>)
14970	0x8F00	輀 (<CJK Ideograph>)
14971	0x8F05	輅 (<CJK Ideograph>)
14972	0x8F07	輇 (<CJK Ideograph>)
14973	0x8F08	輈 (<CJK Ideograph>)
14974	0x8F02	輂 (<CJK Ideograph>)
14975	0x8F0B	輋 (<CJK Ideograph>)
14976	0x9052	遒 (<CJK Ideograph>)
14977	0x903F	逿 (<CJK Ideograph>)
14978	0x9044	遄 (<CJK Ideograph>)
14979	0x9049	遉 (<CJK Ideograph>)
14980	0x903D	逽 (<CJK Ideograph>)
14981	0x9110	鄐 (<CJK Ideograph>)
14982	0x910D	鄍 (<CJK Ideograph>)
14983	0x910F	鄏 (<CJK Ideograph>)
14984	0x9111	鄑 (<CJK Ideograph>)
14985	0x9116	鄖 (<CJK Ideograph>)
14986	0x9114	鄔 (<CJK Ideograph>)
14987	0x910B	鄋 (<CJK Ideograph>)
14988	0x910E	鄎 (<CJK Ideograph>)
14989	0x916E	酮 (<CJK Ideograph>)
14990	0x916F	酯 (<CJK Ideograph>)
14991	0x9248	鉈 (<CJK Ideograph>)
14992	0x9252	鉒 (<CJK Ideograph>)
14993	0x9230	鈰 (<CJK Ideograph>)
14994	0x923A	鈺 (<CJK Ideograph>)
14995	0x9266	鉦 (<CJK Ideograph>)
14996	0x9233	鈳 (<CJK Ideograph>)
14997	0x9265	鉥 (<CJK Ideograph>)
14998	0x925E	鉞 (<CJK Ideograph>)
14999	0x9283	銃 (<CJK Ideograph>)
15000	0x922E	鈮 (<CJK Ideograph>)
15001	0x924A	鉊 (<CJK Ideograph>)
15002	0x9246	鉆 (<CJK Ideograph>)
15003	0x926D	鉭 (<CJK Ideograph>)
15004	0x926C	鉬 (<CJK Ideograph>)
15005	0x924F	鉏 (<CJK Ideograph>)
15006	0x9260	鉠 (<CJK Ideograph>)
15007	0x9267	鉧 (<CJK Ideograph>)
15008	0x926F	鉯 (<CJK Ideograph>)
15009	0x9236	鈶 (<CJK Ideograph>)
15010	0x9261	鉡 (<CJK Ideograph>)
15011	0x9270	鉰 (<CJK Ideograph>)
15012	0x9231	鈱 (<CJK Ideograph>)
15013	0x9254	鉔 (<CJK Ideograph>)
15014	0x9263	鉣 (<CJK Ideograph>)
15015	0x9250	鉐 (<CJK Ideograph>)
15016	0x9272	鉲 (<CJK Ideograph>)
15017	0x924E	鉎 (<CJK Ideograph>)
15018	0x9253	鉓 (<CJK Ideograph>)
15019	0x924C	鉌 (<CJK Ideograph>)
15020	0x9256	鉖 (<CJK Ideograph>)
15021	0x9232	鈲 (<CJK Ideograph>)
15022	0x959F	閟 (<CJK Ideograph>)
15023	0x959C	閜 (<CJK Ideograph>)
15024	0x959E	閞 (<CJK Ideograph>)
15025	0x959B	閛 (<CJK Ideograph>)
15026	0x9692	隒 (<CJK Ideograph>)
15027	0x9693	隓 (<CJK Ideograph>)
15028	0x9691	隑 (<CJK Ideograph>)
15029	0x9697	隗 (<CJK Ideograph>)
15030	0x96CE	雎 (<CJK Ideograph>)
15031	0x96FA	雺 (<CJK Ideograph>)
15032	0x96FD	雽 (<CJK Ideograph>)
15033	0x96F8	雸 (<CJK Ideograph>)
15034	0x96F5	雵 (<CJK Ideograph>)
15035	0x9773	靳 (<CJK Ideograph>)
15036	0x9777	靷 (<CJK Ideograph>)
15037	0x9778	靸 (<CJK Ideograph>)
15038	0x9772	靲 (<CJK Ideograph>)
15039	0x980F	頏 (<CJK Ideograph>)
15040	0x980D	頍 (<CJK Ideograph>)
15041	0x980E	頎 (<CJK Ideograph>)
15042	0x98AC	颬 (<CJK Ideograph>)
15043	0x98F6	飶 (<CJK Ideograph>)
15044	0x98F9	飹 (<CJK Ideograph>)
15045	0x99AF	馯 (<CJK Ideograph>)
15046	0x99B2	馲 (<CJK Ideograph>)
15047	0x99B0	馰 (<CJK Ideograph>)
15048	0x99B5	馵 (<CJK Ideograph>)
15049	0x9AAD	骭 (<CJK Ideograph>)
15050	0x9AAB	骫 (<CJK Ideograph>)
15051	0x9B5B	魛 (<CJK Ideograph>)
15052	0x9CEA	鳪 (<CJK Ideograph>)
15053	0x9CED	鳭 (<CJK Ideograph>)
15054	0x9CE7	鳧 (<CJK Ideograph>)
15055	0x9E80	麀 (<CJK Ideograph>)
15056	0x9EFD	黽 (<CJK Ideograph>)
15057	0x50E6	僦 (<CJK Ideograph>)
15058	0x50D4	僔 (<CJK Ideograph>)
15059	0x50D7	僗 (<CJK Ideograph>)
15060	0x50E8	僨 (<CJK Ideograph>)
15061	0x50F3	僳 (<CJK Ideograph>)
15062	0x50DB	僛 (<CJK Ideograph>)
15063	0x50EA	僪 (<CJK Ideograph>)
15064	0x50DD	僝 (<CJK Ideograph>)
15065	0x50E4	僤 (<CJK Ideograph>)
15066	0x50D3	僓 (<CJK Ideograph>)
15067	0x50EC	僬 (<CJK Ideograph>)
15068	0x50F0	僰 (<CJK Ideograph>)
15069	0x50EF	僯 (<CJK Ideograph>)
15070	0x50E3	僣 (<CJK Ideograph>)
15071	0x50E0	僠 (<CJK Ideograph>)
"#

/-- encoding_tables/whatwg/index-big5.txt:13887-14043 -/
noncomputable def index96 : List Text := lines! r#"15072	0x51D8	凘 (<CJK Ideograph>)
15073	0x5280	劀 (<CJK Ideograph>)
15074	0x5281	劁 (<CJK Ideograph>)
15075	0x52E9	勩 (<CJK Ideograph>)
15076	0x52EB	勫 (<CJK Ideograph>)
15077	0x5330	匰 (<CJK Ideograph>)
15078	0x53AC	厬 (<CJK Ideograph>)
15079	0x5627	嘧 (<CJK Ideograph>)
15080	0x5615	嘕 (<CJK Ideograph>)
15081	0x560C	嘌 (<CJK Ideograph>)
15082	0x5612	嘒 (<CJK Ideograph>)
15083	0x55FC	嗼 (<CJK Ideograph>)
15084	0x560F	嘏 (<CJK Ideograph>)
15085	0x561C	嘜 (<CJK Ideograph>)
15086	0x5601	嘁 (<CJK Ideograph>)
15087	0x5613	嘓 (<CJK Ideograph>)
15088	0x5602	嘂 (<CJK Ideograph>)
15089	0x55FA	嗺 (<CJK Ideograph>)
15090	0x561D	嘝 (<CJK Ideograph>)
15091	0x5604	嘄 (<CJK Ideograph>)
15092	0x55FF	嗿 (<CJK Ideograph>)
15093	0x55F9	嗹 (<CJK Ideograph>)
15094	0x5889	墉 (<CJK Ideograph>)
15095	0x587C	塼 (<CJK Ideograph>)
15096	0x5890	墐 (<CJK Ideograph>)
15097	0x5898	墘 (<CJK Ideograph>)
15098	0x5886	墆 (<CJK Ideograph>)
15099	0x5881	墁 (<CJK Ideograph>)
15100	0x587F	塿 (<CJK Ideograph>)
15101	0x5874	塴 (<CJK Ideograph>)
15102	0x588B	墋 (<CJK Ideograph>)
15103	0x587A	塺 (<CJK Ideograph>)
15104	0x5887	墇 (<CJK Ideograph>)
15105	0x5891	墑 (<CJK Ideograph>)
15106	0x588E	墎 (<CJK Ideograph>)
15107	0x5876	塶 (<CJK Ideograph>)
15108	0x5882	墂 (<CJK Ideograph>)
15109	0x5888	墈 (<CJK Ideograph>)
15110	0x587B	塻 (<CJK Ideograph>)
15111	0x5894	墔 (<CJK Ideograph>)
15112	0x588F	墏 (<CJK Ideograph>)
15113	0x58FE	壾 (<CJK Ideograph>)
15114	0x596B	奫 (<CJK Ideograph>)
15115	0x5ADC	嫜 (<CJK Ideograph>)
15116	0x5AEE	嫮 (<CJK Ideograph>)
15117	0x5AE5	嫥 (<CJK Ideograph>)
15118	0x5AD5	嫕 (<CJK Ideograph>)
15119	0x5AEA	嫪 (<CJK Ideograph>)
15120	0x5ADA	嫚 (<CJK Ideograph>)
15121	0x5AED	嫭 (<CJK Ideograph>)
15122	0x5AEB	嫫 (<CJK Ideograph>)
15123	0x5AF3	嫳 (<CJK Ideograph>)
15124	0x5AE2	嫢 (<CJK Ideograph>)
15125	0x5AE0	嫠 (<CJK Ideograph>)
15126	0x5ADB	嫛 (<CJK Ideograph>)
15127	0x5AEC	嫬 (<CJK Ideograph>)
15128	0x5ADE	嫞 (<CJK Ideograph>)
15129	0x5ADD	嫝 (<CJK Ideograph>)
15130	0x5AD9	嫙 (<CJK Ideograph>)
15131	0x5AE8	嫨 (<CJK Ideograph>)
15132	0x5ADF	嫟 (<CJK Ideograph>)
15133	0x5B77	孷 (<CJK Ideograph>)
15134	0x5BE0	寠 (<CJK Ideograph>)
15135	0x5BE3	寣 (<CJK Ideograph>)
15136	0x5C63	屣 (<CJK Ideograph>)
15137	0x5D82	嶂 (<CJK Ideograph>)
15138	0x5D80	嶀 (<CJK Ideograph>)
15139	0x5D7D	嵽 (<CJK Ideograph>)
15140	0x5D86	嶆 (<CJK Ideograph>)
15141	0x5D7A	嵺 (<CJK Ideograph>)
15142	0x5D81	嶁 (<CJK Ideograph>)
15143	0x5D77	嵷 (<CJK Ideograph>)
15144	0x5D8A	嶊 (<CJK Ideograph>)
15145	0x5D89	嶉 (<CJK Ideograph>)
15146	0x5D88	嶈 (<CJK Ideograph>)
15147	0x5D7E	嵾 (<CJK Ideograph>)
15148	0x5D7C	嵼 (<CJK Ideograph>)
15149	0x5D8D	嶍 (<CJK Ideograph>)
15150	0x5D79	嵹 (<CJK Ideograph>)
15151	0x5D7F	嵿 (<CJK Ideograph>)
15152	0x5E58	幘 (<CJK Ideograph>)
15153	0x5E59	幙 (<CJK Ideograph>)
15154	0x5E53	幓 (<CJK Ideograph>)
15155	0x5ED8	廘 (<CJK Ideograph>)
15156	0x5ED1	廑 (<CJK Ideograph>)
15157	0x5ED7	廗 (<CJK Ideograph>)
15158	0x5ECE	廎 (<CJK Ideograph>)
15159	0x5EDC	廜 (<CJK Ideograph>)
15160	0x5ED5	廕 (<CJK Ideograph>)
15161	0x5ED9	廙 (<CJK Ideograph>)
15162	0x5ED2	廒 (<CJK Ideograph>)
15163	0x5ED4	廔 (<CJK Ideograph>)
15164	0x5F44	彄 (<CJK Ideograph>)
15165	0x5F43	彃 (<CJK Ideograph>)
15166	0x5F6F	彯 (<CJK Ideograph>)
15167	0x5FB6	徶 (<CJK Ideograph>)
15168	0x612C	愬 (<CJK Ideograph>)
15169	0x6128	愨 (<CJK Ideograph>)
15170	0x6141	慁 (<CJK Ideograph>)
15171	0x615E	慞 (<CJK Ideograph>)
15172	0x6171	慱 (<CJK Ideograph>)
15173	0x6173	慳 (<CJK Ideograph>)
15174	0x6152	慒 (<CJK Ideograph>)
15175	0x6153	慓 (<CJK Ideograph>)
15176	0x6172	慲 (<CJK Ideograph>)
15177	0x616C	慬 (<CJK Ideograph>)
15178	0x6180	憀 (<CJK Ideograph>)
15179	0x6174	慴 (<CJK Ideograph>)
15180	0x6154	慔 (<CJK Ideograph>)
15181	0x617A	慺 (<CJK Ideograph>)
15182	0x615B	慛 (<CJK Ideograph>)
15183	0x6165	慥 (<CJK Ideograph>)
15184	0x613B	愻 (<CJK Ideograph>)
15185	0x616A	慪 (<CJK Ideograph>)
15186	0x6161	慡 (<CJK Ideograph>)
15187	0x6156	慖 (<CJK Ideograph>)
15188	0x6229	戩 (<CJK Ideograph>)
15189	0x6227	戧 (<CJK Ideograph>)
15190	0x622B	戫 (<CJK Ideograph>)
15191	0x642B	搫 (<CJK Ideograph>)
15192	0x644D	摍 (<CJK Ideograph>)
15193	0x645B	摛 (<CJK Ideograph>)
15194	0x645D	摝 (<CJK Ideograph>)
15195	0x6474	摴 (<CJK Ideograph>)
15196	0x6476	摶 (<CJK Ideograph>)
15197	0x6472	摲 (<CJK Ideograph>)
15198	0x6473	摳 (<CJK Ideograph>)
15199	0x647D	摽 (<CJK Ideograph>)
15200	0x6475	摵 (<CJK Ideograph>)
15201	0x6466	摦 (<CJK Ideograph>)
15202	0x64A6	撦 (<CJK Ideograph>)
15203	0x644E	摎 (<CJK Ideograph>)
15204	0x6482	撂 (<CJK Ideograph>)
15205	0x645E	摞 (<CJK Ideograph>)
15206	0x645C	摜 (<CJK Ideograph>)
15207	0x644B	摋 (<CJK Ideograph>)
15208	0x6453	摓 (<CJK Ideograph>)
15209	0x6460	摠 (<CJK Ideograph>)
15210	0x6450	摐 (<CJK Ideograph>)
15211	0x647F	摿 (<CJK Ideograph>)
15212	0x643F	搿 (<CJK Ideograph>)
15213	0x646C	摬 (<CJK Ideograph>)
15214	0x646B	摫 (<CJK Ideograph>)
15215	0x6459	摙 (<CJK Ideograph>)
15216	0x6465	摥 (<CJK Ideograph>)
15217	0x6477	摷 (<CJK Ideograph>)
15218	0x6573	敳 (<CJK Ideograph>)
15219	0x65A0	斠 (<CJK Ideograph>)
15220	0x66A1	暡 (<CJK Ideograph>)
15221	0x66A0	暠 (<CJK Ideograph>)
15222	0x669F	暟 (<CJK Ideograph>)
15223	0x6705	朅 (<CJK Ideograph>)
15224	0x6704	朄 (<CJK Ideograph>)
15225	0x6722	朢 (<CJK Ideograph>)
15226	0x69B1	榱 (<CJK Ideograph>)
15227	0x69B6	榶 (<CJK Ideograph>)
15228	0x69C9	槉 (<CJK Ideograph>)
"#

/-- encoding_tables/whatwg/index-big5.txt:14044-14200 -/
noncomputable def index97 : List Text := lines! r#"15229	0x69A0	榠 (<CJK Ideograph>)
15230	0x69CE	槎 (<CJK Ideograph>)
15231	0x6996	榖 (<CJK Ideograph>)
15232	0x69B0	榰 (<CJK Ideograph>)
15233	0x69AC	榬 (<CJK Ideograph>)
15234	0x69BC	榼 (<CJK Ideograph>)
15235	0x6991	榑 (<CJK Ideograph>)
15236	0x6999	榙 (<CJK Ideograph>)
15237	0x698E	榎 (<CJK Ideograph>)
15238	0x69A7	榧 (<CJK Ideograph>)
15239	0x698D	榍 (<CJK Ideograph>)
15240	0x69A9	榩 (<CJK Ideograph>)
15241	0x69BE	榾 (<CJK Ideograph>)
15242	0x69AF	榯 (<CJK Ideograph>)
15243	0x69BF	榿 (<CJK Ideograph>)
15244	0x69C4	槄 (<CJK Ideograph>)
15245	0x69BD	榽 (<CJK Ideograph>)
15246	0x69A4	榤 (<CJK Ideograph>)
15247	0x69D4	槔 (<CJK Ideograph>)
15248	0x69B9	榹 (<CJK Ideograph>)
15249	0x69CA	槊 (<CJK Ideograph>)
15250	0x699A	榚 (<CJK Ideograph>)
15251	0x69CF	槏 (<CJK Ideograph>)
15252	0x69B3	榳 (<CJK Ideograph>)
15253	0x6993	榓 (<CJK Ideograph>)
15254	0x69AA	榪 (<CJK Ideograph>)
15255	0x69A1	榡 (<CJK Ideograph>)
15256	0x699E	榞 (<CJK Ideograph>)
15257	0x69D9	槙 (<CJK Ideograph>)
15258	0x6997	榗 (<CJK Ideograph>)
15259	0x6990	榐 (<CJK Ideograph>)
15260	0x69C2	槂 (<CJK Ideograph>)
15261	0x69B5	榵 (<CJK Ideograph>)
15262	0x69A5	榥 (<CJK Ideograph>)
15263	0x69C6	槆 (<CJK Ideograph>)
15264	0x6B4A	歊 (<CJK Ideograph>)
15265	0x6B4D	歍 (<CJK Ideograph>)
15266	0x6B4B	歋 (<CJK Ideograph>)
15267	0x6B9E	殞 (<CJK Ideograph>)
15268	0x6B9F	殟 (<CJK Ideograph>)
15269	0x6BA0	殠 (<CJK Ideograph>)
15270	0x6BC3	毃 (<CJK Ideograph>)
15271	0x6BC4	毄 (<CJK Ideograph>)
15272	0x6BFE	毾 (<CJK Ideograph>)
15273	0x6ECE	滎 (<CJK Ideograph>)
15274	0x6EF5	滵 (<CJK Ideograph>)
15275	0x6EF1	滱 (<CJK Ideograph>)
15276	0x6F03	漃 (<CJK Ideograph>)
15277	0x6F25	漥 (<CJK Ideograph>)
15278	0x6EF8	滸 (<CJK Ideograph>)
15279	0x6F37	漷 (<CJK Ideograph>)
15280	0x6EFB	滻 (<CJK Ideograph>)
15281	0x6F2E	漮 (<CJK Ideograph>)
15282	0x6F09	漉 (<CJK Ideograph>)
15283	0x6F4E	潎 (<CJK Ideograph>)
15284	0x6F19	漙 (<CJK Ideograph>)
15285	0x6F1A	漚 (<CJK Ideograph>)
15286	0x6F27	漧 (<CJK Ideograph>)
15287	0x6F18	漘 (<CJK Ideograph>)
15288	0x6F3B	漻 (<CJK Ideograph>)
15289	0x6F12	漒 (<CJK Ideograph>)
15290	0x6EED	滭 (<CJK Ideograph>)
15291	0x6F0A	漊 (<CJK Ideograph>)
15292	0x6F36	漶 (<CJK Ideograph>)
15293	0x6F73	潳 (<CJK Ideograph>)
15294	0x6EF9	滹 (<CJK Ideograph>)
15295	0x6EEE	滮 (<CJK Ideograph>)
15296	0x6F2D	漭 (<CJK Ideograph>)
15297	0x6F40	潀 (<CJK Ideograph>)
15298	0x6F30	漰 (<CJK Ideograph>)
15299	0x6F3C	漼 (<CJK Ideograph>)
15300	0x6F35	漵 (<CJK Ideograph>)
15301	0x6EEB	滫 (<CJK Ideograph>)
15302	0x6F07	漇 (<CJK Ideograph>)
15303	0x6F0E	漎 (<CJK Ideograph>)
15304	0x6F43	潃 (<CJK Ideograph>)
15305	0x6F05	漅 (<CJK Ideograph>)
15306	0x6EFD	滽 (<CJK Ideograph>)
15307	0x6EF6	滶 (<CJK Ideograph>)
15308	0x6F39	漹 (<CJK Ideograph>)
15309	0x6F1C	漜 (<CJK Ideograph>)
15310	0x6EFC	滼 (<CJK Ideograph>)
15311	0x6F3A	漺 (<CJK Ideograph>)
15312	0x6F1F	漟 (<CJK Ideograph>)
15313	0x6F0D	漍 (<CJK Ideograph>)
15314	0x6F1E	漞 (<CJK Ideograph>)
15315	0x6F08	漈 (<CJK Ideograph>)
15316	0x6F21	漡 (<CJK Ideograph>)
15317	0x7187	熇 (<CJK Ideograph>)
15318	0x7190	熐 (<CJK Ideograph>)
15319	0x7189	熉 (<CJK Ideograph>)
15320	0x7180	熀 (<CJK Ideograph>)
15321	0x7185	熅 (<CJK Ideograph>)
15322	0x7182	熂 (<CJK Ideograph>)
15323	0x718F	熏 (<CJK Ideograph>)
15324	0x717B	煻 (<CJK Ideograph>)
15325	0x7186	熆 (<CJK Ideograph>)
15326	0x7181	熁 (<CJK Ideograph>)
15327	0x7197	熗 (<CJK Ideograph>)
15328	0x7244	牄 (<CJK Ideograph>)
15329	0x7253	牓 (<CJK Ideograph>)
15330	0x7297	犗 (<CJK Ideograph>)
15331	0x7295	犕 (<CJK Ideograph>)
15332	0x7293	犓 (<CJK Ideograph>)
15333	0x7343	獃 (<CJK Ideograph>)
15334	0x734D	獍 (<CJK Ideograph>)
15335	0x7351	獑 (<CJK Ideograph>)
15336	0x734C	獌 (<CJK Ideograph>)
15337	0x7462	瑢 (<CJK Ideograph>)
15338	0x7473	瑳 (<CJK Ideograph>)
15339	0x7471	瑱 (<CJK Ideograph>)
15340	0x7475	瑵 (<CJK Ideograph>)
15341	0x7472	瑲 (<CJK Ideograph>)
15342	0x7467	瑧 (<CJK Ideograph>)
15343	0x746E	瑮 (<CJK Ideograph>)
15344	0x7500	甀 (<CJK Ideograph>)
15345	0x7502	甂 (<CJK Ideograph>)
15346	0x7503	甃 (<CJK Ideograph>)
15347	0x757D	畽 (<CJK Ideograph>)
15348	0x7590	疐 (<CJK Ideograph>)
15349	0x7616	瘖 (<CJK Ideograph>)
15350	0x7608	瘈 (<CJK Ideograph>)
15351	0x760C	瘌 (<CJK Ideograph>)
15352	0x7615	瘕 (<CJK Ideograph>)
15353	0x7611	瘑 (<CJK Ideograph>)
15354	0x760A	瘊 (<CJK Ideograph>)
15355	0x7614	瘔 (<CJK Ideograph>)
15356	0x76B8	皸 (<CJK Ideograph>)
15357	0x7781	瞁 (<CJK Ideograph>)
15358	0x777C	睼 (<CJK Ideograph>)
15359	0x7785	瞅 (<CJK Ideograph>)
15360	0x7782	瞂 (<CJK Ideograph>)
15361	0x776E	睮 (<CJK Ideograph>)
15362	0x7780	瞀 (<CJK Ideograph>)
15363	0x776F	睯 (<CJK Ideograph>)
15364	0x777E	睾 (<CJK Ideograph>)
15365	0x7783	瞃 (<CJK Ideograph>)
15366	0x78B2	碲 (<CJK Ideograph>)
15367	0x78AA	碪 (<CJK Ideograph>)
15368	0x78B4	碴 (<CJK Ideograph>)
15369	0x78AD	碭 (<CJK Ideograph>)
15370	0x78A8	碨 (<CJK Ideograph>)
15371	0x787E	硾 (<CJK Ideograph>)
15372	0x78AB	碫 (<CJK Ideograph>)
15373	0x789E	碞 (<CJK Ideograph>)
15374	0x78A5	碥 (<CJK Ideograph>)
15375	0x78A0	碠 (<CJK Ideograph>)
15376	0x78AC	碬 (<CJK Ideograph>)
15377	0x78A2	碢 (<CJK Ideograph>)
15378	0x78A4	碤 (<CJK Ideograph>)
15379	0x7998	禘 (<CJK Ideograph>)
15380	0x798A	禊 (<CJK Ideograph>)
15381	0x798B	禋 (<CJK Ideograph>)
15382	0x7996	禖 (<CJK Ideograph>)
15383	0x7995	禕 (<CJK Ideograph>)
15384	0x7994	禔 (<CJK Ideograph>)
15385	0x7993	禓 (<CJK Ideograph>)
"#

/-- encoding_tables/whatwg/index-big5.txt:14201-14357 -/
noncomputable def index98 : List Text := lines! r#"15386	0x7997	禗 (<CJK Ideograph>)
15387	0x7988	禈 (<CJK Ideograph>)
15388	0x7992	禒 (<CJK Ideograph>)
15389	0x7990	禐 (<CJK Ideograph>)
15390	0x7A2B	稫 (<CJK Ideograph>)
15391	0x7A4A	穊 (<CJK Ideograph>)
15392	0x7A30	稰 (<CJK Ideograph>)
15393	0x7A2F	稯 (<CJK Ideograph>)
15394	0x7A28	稨 (<CJK Ideograph>)
15395	0x7A26	稦 (<CJK Ideograph>)
15396	0x7AA8	窨 (<CJK Ideograph>)
15397	0x7AAB	窫 (<CJK Ideograph>)
15398	0x7AAC	窬 (<CJK Ideograph>)
15399	0x7AEE	竮 (<CJK Ideograph>)
15400	0x7B88	箈 (<CJK Ideograph>)
15401	0x7B9C	箜 (<CJK Ideograph>)
15402	0x7B8A	箊 (<CJK Ideograph>)
15403	0x7B91	箑 (<CJK Ideograph>)
15404	0x7B90	箐 (<CJK Ideograph>)
15405	0x7B96	箖 (<CJK Ideograph>)
15406	0x7B8D	箍 (<CJK Ideograph>)
15407	0x7B8C	箌 (<CJK Ideograph>)
15408	0x7B9B	箛 (<CJK Ideograph>)
15409	0x7B8E	箎 (<CJK Ideograph>)
15410	0x7B85	箅 (<CJK Ideograph>)
15411	0x7B98	箘 (<CJK Ideograph>)
15412	0x5284	劄 (<CJK Ideograph>)
15413	0x7B99	箙 (<CJK Ideograph>)
15414	0x7BA4	箤 (<CJK Ideograph>)
15415	0x7B82	箂 (<CJK Ideograph>)
15416	0x7CBB	粻 (<CJK Ideograph>)
15417	0x7CBF	粿 (<CJK Ideograph>)
15418	0x7CBC	粼 (<CJK Ideograph>)
15419	0x7CBA	粺 (<CJK Ideograph>)
15420	0x7DA7	綧 (<CJK Ideograph>)
15421	0x7DB7	綷 (<CJK Ideograph>)
15422	0x7DC2	緂 (<CJK Ideograph>)
15423	0x7DA3	綣 (<CJK Ideograph>)
15424	0x7DAA	綪 (<CJK Ideograph>)
15425	0x7DC1	緁 (<CJK Ideograph>)
15426	0x7DC0	緀 (<CJK Ideograph>)
15427	0x7DC5	緅 (<CJK Ideograph>)
15428	0x7D9D	綝 (<CJK Ideograph>)
15429	0x7DCE	緎 (<CJK Ideograph>)
15430	0x7DC4	緄 (<CJK Ideograph>)
15431	0x7DC6	緆 (<CJK Ideograph>)
15432	0x7DCB	緋 (<CJK Ideograph>)
15433	0x7DCC	緌 (<CJK Ideograph>)
15434	0x7DAF	綯 (<CJK Ideograph>)
15435	0x7DB9	綹 (<CJK Ideograph>)
15436	0x7D96	綖 (<CJK Ideograph>)
15437	0x7DBC	綼 (<CJK Ideograph>)
15438	0x7D9F	綟 (<CJK Ideograph>)
15439	0x7DA6	綦 (<CJK Ideograph>)
15440	0x7DAE	綮 (<CJK Ideograph>)
15441	0x7DA9	綩 (<CJK Ideograph>)
15442	0x7DA1	綡 (<CJK Ideograph>)
15443	0x7DC9	緉 (<CJK Ideograph>)
15444	0x7F73	罳 (<CJK Ideograph>)
15445	0x7FE2	翢 (<CJK Ideograph>)
15446	0x7FE3	翣 (<CJK Ideograph>)
15447	0x7FE5	翥 (<CJK Ideograph>)
15448	0x7FDE	翞 (<CJK Ideograph>)
15449	0x8024	耤 (<CJK Ideograph>)
15450	0x805D	聝 (<CJK Ideograph>)
15451	0x805C	聜 (<CJK Ideograph>)
15452	0x8189	膉 (<CJK Ideograph>)
15453	0x8186	膆 (<CJK Ideograph>)
15454	0x8183	膃 (<CJK Ideograph>)
15455	0x8187	膇 (<CJK Ideograph>)
15456	0x818D	膍 (<CJK Ideograph>)
15457	0x818C	膌 (<CJK Ideograph>)
15458	0x818B	膋 (<CJK Ideograph>)
15459	0x8215	舕 (<CJK Ideograph>)
15460	0x8497	蒗 (<CJK Ideograph>)
15461	0x84A4	蒤 (<CJK Ideograph>)
15462	0x84A1	蒡 (<CJK Ideograph>)
15463	0x849F	蒟 (<CJK Ideograph>)
15464	0x84BA	蒺 (<CJK Ideograph>)
15465	0x84CE	蓎 (<CJK Ideograph>)
15466	0x84C2	蓂 (<CJK Ideograph>)
15467	0x84AC	蒬 (<CJK Ideograph>)
15468	0x84AE	蒮 (<CJK Ideograph>)
15469	0x84AB	蒫 (<CJK Ideograph>)
15470	0x84B9	蒹 (<CJK Ideograph>)
15471	0x84B4	蒴 (<CJK Ideograph>)
15472	0x84C1	蓁 (<CJK Ideograph>)
15473	0x84CD	蓍 (<CJK Ideograph>)
15474	0x84AA	蒪 (<CJK Ideograph>)
15475	0x849A	蒚 (<CJK Ideograph>)
15476	0x84B1	蒱 (<CJK Ideograph>)
15477	0x84D0	蓐 (<CJK Ideograph>)
15478	0x849D	蒝 (<CJK Ideograph>)
15479	0x84A7	蒧 (<CJK Ideograph>)
15480	0x84BB	蒻 (<CJK Ideograph>)
15481	0x84A2	蒢 (<CJK Ideograph>)
15482	0x8494	蒔 (<CJK Ideograph>)
15483	0x84C7	蓇 (<CJK Ideograph>)
15484	0x84CC	蓌 (<CJK Ideograph>)
15485	0x849B	蒛 (<CJK Ideograph>)
15486	0x84A9	蒩 (<CJK Ideograph>)
15487	0x84AF	蒯 (<CJK Ideograph>)
15488	0x84A8	蒨 (<CJK Ideograph>)
15489	0x84D6	蓖 (<CJK Ideograph>)
15490	0x8498	蒘 (<CJK Ideograph>)
15491	0x84B6	蒶 (<CJK Ideograph>)
15492	0x84CF	蓏 (<CJK Ideograph>)
15493	0x84A0	蒠 (<CJK Ideograph>)
15494	0x84D7	蓗 (<CJK Ideograph>)
15495	0x84D4	蓔 (<CJK Ideograph>)
15496	0x84D2	蓒 (<CJK Ideograph>)
15497	0x84DB	蓛 (<CJK Ideograph>)
15498	0x84B0	蒰 (<CJK Ideograph>)
15499	0x8491	蒑 (<CJK Ideograph>)
15500	0x8661	虡 (<CJK Ideograph>)
15501	0x8733	蜳 (<CJK Ideograph>)
15502	0x8723	蜣 (<CJK Ideograph>)
15503	0x8728	蜨 (<CJK Ideograph>)
15504	0x876B	蝫 (<CJK Ideograph>)
15505	0x8740	蝀 (<CJK Ideograph>)
15506	0x872E	蜮 (<CJK Ideograph>)
15507	0x871E	蜞 (<CJK Ideograph>)
15508	0x8721	蜡 (<CJK Ideograph>)
15509	0x8719	蜙 (<CJK Ideograph>)
15510	0x871B	蜛 (<CJK Ideograph>)
15511	0x8743	蝃 (<CJK Ideograph>)
15512	0x872C	蜬 (<CJK Ideograph>)
15513	0x8741	蝁 (<CJK Ideograph>)
15514	0x873E	蜾 (<CJK Ideograph>)
15515	0x8746	蝆 (<CJK Ideograph>)
15516	0x8720	蜠 (<CJK Ideograph>)
15517	0x8732	蜲 (<CJK Ideograph>)
15518	0x872A	蜪 (<CJK Ideograph>)
15519	0x872D	蜭 (<CJK Ideograph>)
15520	0x873C	蜼 (<CJK Ideograph>)
15521	0x8712	蜒 (<CJK Ideograph>)
15522	0x873A	蜺 (<CJK Ideograph>)
15523	0x8731	蜱 (<CJK Ideograph>)
15524	0x8735	蜵 (<CJK Ideograph>)
15525	0x8742	蝂 (<CJK Ideograph>)
15526	0x8726	蜦 (<CJK Ideograph>)
15527	0x8727	蜧 (<CJK Ideograph>)
15528	0x8738	蜸 (<CJK Ideograph>)
15529	0x8724	蜤 (<CJK Ideograph>)
15530	0x871A	蜚 (<CJK Ideograph>)
15531	0x8730	蜰 (<CJK Ideograph>)
15532	0x8711	蜑 (<CJK Ideograph>)
15533	0x88F7	裷 (<CJK Ideograph>)
15534	0x88E7	裧 (<CJK Ideograph>)
15535	0x88F1	裱 (<CJK Ideograph>)
15536	0x88F2	裲 (<CJK Ideograph>)
15537	0x88FA	裺 (<CJK Ideograph>)
15538	0x88FE	裾 (<CJK Ideograph>)
15539	0x88EE	裮 (<CJK Ideograph>)
15540	0x88FC	裼 (<CJK Ideograph>)
15541	0x88F6	裶 (<CJK Ideograph>)
15542	0x88FB	裻 (<CJK Ideograph>)
"#

/-- encoding_tables/whatwg/index-big5.txt:14358-14514 -/
noncomputable def index99 : List Text := lines! r#"15543	0x88F0	裰 (<CJK Ideograph>)
15544	0x88EC	裬 (<CJK Ideograph>)
15545	0x88EB	裫 (<CJK Ideograph>)
15546	0x899D	覝 (<CJK Ideograph>)
15547	0x89A1	覡 (<CJK Ideograph>)
15548	0x899F	覟 (<CJK Ideograph>)
15549	0x899E	覞 (<CJK Ideograph>)
15550	0x89E9	觩 (<CJK Ideograph>)
15551	0x89EB	觫 (<CJK Ideograph>)
15552	0x89E8	觨 (<CJK Ideograph>)
15553	0x8AAB	誫 (<CJK Ideograph>)
15554	0x8A99	誙 (<CJK Ideograph>)
15555	0x8A8B	誋 (<CJK Ideograph>)
15556	0x8A92	誒 (<CJK Ideograph>)
15557	0x8A8F	誏 (<CJK Ideograph>)
15558	0x8A96	誖 (<CJK Ideograph>)
15559	0x8C3D	谽 (<CJK Ideograph>)
15560	0x8C68	豨 (<CJK Ideograph>)
15561	0x8C69	豩 (<CJK Ideograph>)
15562	0x8CD5	賕 (<CJK Ideograph>)
15563	0x8CCF	賏 (<CJK Ideograph>)
15564	0x8CD7	賗 (<CJK Ideograph>)
15565	0x8D96	趖 (<CJK Ideograph>)
15566	0x8E09	踉 (<CJK Ideograph>)
15567	0x8E02	踂 (<CJK Ideograph>)
15568	0x8DFF	跿 (<CJK Ideograph>)
15569	0x8E0D	踍 (<CJK Ideograph>)
15570	0x8DFD	跽 (<CJK Ideograph>)
15571	0x8E0A	踊 (<CJK Ideograph>)
15572	0x8E03	踃 (<CJK Ideograph>)
15573	0x8E07	踇 (<CJK Ideograph>)
15574	0x8E06	踆 (<CJK Ideograph>)
15575	0x8E05	踅 (<CJK Ideograph>)
15576	0x8DFE	跾 (<CJK Ideograph>)
15577	0x8E00	踀 (<CJK Ideograph>)
15578	0x8E04	踄 (<CJK Ideograph>)
15579	0x8F10	輐 (<CJK Ideograph>)
15580	0x8F11	輑 (<CJK Ideograph>)
15581	0x8F0E	輎 (<CJK Ideograph>)
15582	0x8F0D	輍 (<CJK Ideograph>)
15583	0x9123	鄣 (<CJK Ideograph>)
15584	0x911C	鄜 (<CJK Ideograph>)
15585	0x9120	鄠 (<CJK Ideograph>)
15586	0x9122	鄢 (<CJK Ideograph>)
15587	0x911F	鄟 (<CJK Ideograph>)
15588	0x911D	鄝 (<CJK Ideograph>)
15589	0x911A	鄚 (<CJK Ideograph>)
15590	0x9124	鄤 (<CJK Ideograph>)
15591	0x9121	鄡 (<CJK Ideograph>)
15592	0x911B	鄛 (<CJK Ideograph>)
15593	0x917A	酺 (<CJK Ideograph>)
15594	0x9172	酲 (<CJK Ideograph>)
15595	0x9179	酹 (<CJK Ideograph>)
15596	0x9173	酳 (<CJK Ideograph>)
15597	0x92A5	銥 (<CJK Ideograph>)
15598	0x92A4	銤 (<CJK Ideograph>)
15599	0x9276	鉶 (<CJK Ideograph>)
15600	0x929B	銛 (<CJK Ideograph>)
15601	0x927A	鉺 (<CJK Ideograph>)
15602	0x92A0	銠 (<CJK Ideograph>)
15603	0x9294	銔 (<CJK Ideograph>)
15604	0x92AA	銪 (<CJK Ideograph>)
15605	0x928D	銍 (<CJK Ideograph>)
15606	0x92A6	銦 (<CJK Ideograph>)
15607	0x929A	銚 (<CJK Ideograph>)
15608	0x92AB	銫 (<CJK Ideograph>)
15609	0x9279	鉹 (<CJK Ideograph>)
15610	0x9297	銗 (<CJK Ideograph>)
15611	0x927F	鉿 (<CJK Ideograph>)
15612	0x92A3	銣 (<CJK Ideograph>)
15613	0x92EE	鋮 (<CJK Ideograph>)
15614	0x928E	銎 (<CJK Ideograph>)
15615	0x9282	銂 (<CJK Ideograph>)
15616	0x9295	銕 (<CJK Ideograph>)
15617	0x92A2	銢 (<CJK Ideograph>)
15618	0x927D	鉽 (<CJK Ideograph>)
15619	0x9288	銈 (<CJK Ideograph>)
15620	0x92A1	銡 (<CJK Ideograph>)
15621	0x928A	銊 (<CJK Ideograph>)
15622	0x9286	銆 (<CJK Ideograph>)
15623	0x928C	銌 (<CJK Ideograph>)
15624	0x9299	銙 (<CJK Ideograph>)
15625	0x92A7	銧 (<CJK Ideograph>)
15626	0x927E	鉾 (<CJK Ideograph>)
15627	0x9287	銇 (<CJK Ideograph>)
15628	0x92A9	銩 (<CJK Ideograph>)
15629	0x929D	銝 (<CJK Ideograph>)
15630	0x928B	銋 (<CJK Ideograph>)
15631	0x922D	鈭 (<CJK Ideograph>)
15632	0x969E	隞 (<CJK Ideograph>)
15633	0x96A1	隡 (<CJK Ideograph>)
15634	0x96FF	雿 (<CJK Ideograph>)
15635	0x9758	靘 (<CJK Ideograph>)
15636	0x977D	靽 (<CJK Ideograph>)
15637	0x977A	靺 (<CJK Ideograph>)
15638	0x977E	靾 (<CJK Ideograph>)
15639	0x9783	鞃 (<CJK Ideograph>)
15640	0x9780	鞀 (<CJK Ideograph>)
15641	0x9782	鞂 (<CJK Ideograph>)
15642	0x977B	靻 (<CJK Ideograph>)
15643	0x9784	鞄 (<CJK Ideograph>)
15644	0x9781	鞁 (<CJK Ideograph>)
15645	0x977F	靿 (<CJK Ideograph>)
15646	0x97CE	韎 (<CJK Ideograph>)
15647	0x97CD	韍 (<CJK Ideograph>)
15648	0x9816	頖 (<CJK Ideograph>)
15649	0x98AD	颭 (<CJK Ideograph>)
15650	0x98AE	颮 (<CJK Ideograph>)
15651	0x9902	餂 (<CJK Ideograph>)
15652	0x9900	餀 (<CJK Ideograph>)
15653	0x9907	餇 (<CJK Ideograph>)
15654	0x999D	馝 (<CJK Ideograph>)
15655	0x999C	馜 (<CJK Ideograph>)
15656	0x99C3	駃 (<CJK Ideograph>)
15657	0x99B9	馹 (<CJK Ideograph>)
15658	0x99BB	馻 (<CJK Ideograph>)
15659	0x99BA	馺 (<CJK Ideograph>)
15660	0x99C2	駂 (<CJK Ideograph>)
15661	0x99BD	馽 (<CJK Ideograph>)
15662	0x99C7	駇 (<CJK Ideograph>)
15663	0x9AB1	骱 (<CJK Ideograph>)
15664	0x9AE3	髣 (<CJK Ideograph>)
15665	0x9AE7	髧 (<CJK Ideograph>)
15666	0x9B3E	鬾 (<CJK Ideograph>)
15667	0x9B3F	鬿 (<CJK Ideograph>)
15668	0x9B60	魠 (<CJK Ideograph>)
15669	0x9B61	魡 (<CJK Ideograph>)
15670	0x9B5F	魟 (<CJK Ideograph>)
15671	0x9CF1	鳱 (<CJK Ideograph>)
15672	0x9CF2	鳲 (<CJK Ideograph>)
15673	0x9CF5	鳵 (<CJK Ideograph>)
15674	0x9EA7	麧 (<CJK Ideograph>)
15675	0x50FF	僿 (<CJK Ideograph>)
15676	0x5103	儃 (<CJK Ideograph>)
15677	0x5130	儰 (<CJK Ideograph>)
15678	0x50F8	僸 (<CJK Ideograph>)
15679	0x5106	儆 (<CJK Ideograph>)
15680	0x5107	儇 (<CJK Ideograph>)
15681	0x50F6	僶 (<CJK Ideograph>)
15682	0x50FE	僾 (<CJK Ideograph>)
15683	0x510B	儋 (<CJK Ideograph>)
15684	0x510C	儌 (<CJK Ideograph>)
15685	0x50FD	僽 (<CJK Ideograph>)
15686	0x510A	儊 (<CJK Ideograph>)
15687	0x528B	劋 (<CJK Ideograph>)
15688	0x528C	劌 (<CJK Ideograph>)
15689	0x52F1	勱 (<CJK Ideograph>)
15690	0x52EF	勯 (<CJK Ideograph>)
15691	0x5648	噈 (<CJK Ideograph>)
15692	0x5642	噂 (<CJK Ideograph>)
15693	0x564C	噌 (<CJK Ideograph>)
15694	0x5635	嘵 (<CJK Ideograph>)
15695	0x5641	噁 (<CJK Ideograph>)
15696	0x564A	噊 (<CJK Ideograph>)
15697	0x5649	噉 (<CJK Ideograph>)
15698	0x5646	噆 (<CJK Ideograph>)
15699	0x5658	噘 (<CJK Ideograph>)
"#

/-- encoding_tables/whatwg/index-big5.txt:14515-14671 -/
noncomputable def index100 : List Text := lines! r#"15700	0x565A	噚 (<CJK Ideograph>)
15701	0x5640	噀 (<CJK Ideograph>)
15702	0x5633	嘳 (<CJK Ideograph>)
15703	0x563D	嘽 (<CJK Ideograph>)
15704	0x562C	嘬 (<CJK Ideograph>)
15705	0x563E	嘾 (<CJK Ideograph>)
15706	0x5638	嘸 (<CJK Ideograph>)
15707	0x562A	嘪 (<CJK Ideograph>)
15708	0x563A	嘺 (<CJK Ideograph>)
15709	0x571A	圚 (<CJK Ideograph>)
15710	0x58AB	墫 (<CJK Ideograph>)
15711	0x589D	墝 (<CJK Ideograph>)
15712	0x58B1	墱 (<CJK Ideograph>)
15713	0x58A0	墠 (<CJK Ideograph>)
15714	0x58A3	墣 (<CJK Ideograph>)
15715	0x58AF	墯 (<CJK Ideograph>)
15716	0x58AC	墬 (<CJK Ideograph>)
15717	0x58A5	墥 (<CJK Ideograph>)
15718	0x58A1	墡 (<CJK Ideograph>)
15719	0x58FF	壿 (<CJK Ideograph>)
15720	0x5AFF	嫿 (<CJK Ideograph>)
15721	0x5AF4	嫴 (<CJK Ideograph>)
15722	0x5AFD	嫽 (<CJK Ideograph>)
15723	0x5AF7	嫷 (<CJK Ideograph>)
15724	0x5AF6	嫶 (<CJK Ideograph>)
15725	0x5B03	嬃 (<CJK Ideograph>)
15726	0x5AF8	嫸 (<CJK Ideograph>)
15727	0x5B02	嬂 (<CJK Ideograph>)
15728	0x5AF9	嫹 (<CJK Ideograph>)
15729	0x5B01	嬁 (<CJK Ideograph>)
15730	0x5B07	嬇 (<CJK Ideograph>)
15731	0x5B05	嬅 (<CJK Ideograph>)
15732	0x5B0F	嬏 (<CJK Ideograph>)
15733	0x5C67	屧 (<CJK Ideograph>)
15734	0x5D99	嶙 (<CJK Ideograph>)
15735	0x5D97	嶗 (<CJK Ideograph>)
15736	0x5D9F	嶟 (<CJK Ideograph>)
15737	0x5D92	嶒 (<CJK Ideograph>)
15738	0x5DA2	嶢 (<CJK Ideograph>)
15739	0x5D93	嶓 (<CJK Ideograph>)
15740	0x5D95	嶕 (<CJK Ideograph>)
15741	0x5DA0	嶠 (<CJK Ideograph>)
15742	0x5D9C	嶜 (<CJK Ideograph>)
15743	0x5DA1	嶡 (<CJK Ideograph>)
15744	0x5D9A	嶚 (<CJK Ideograph>)
15745	0x5D9E	嶞 (<CJK Ideograph>)
15746	0x5E69	幩 (<CJK Ideograph>)
15747	0x5E5D	幝 (<CJK Ideograph>)
15748	0x5E60	幠 (<CJK Ideograph>)
15749	0x5E5C	幜 (<CJK Ideograph>)
15750	0x7DF3	緳 (<CJK Ideograph>)
15751	0x5EDB	廛 (<CJK Ideograph>)
15752	0x5EDE	廞 (<CJK Ideograph>)
15753	0x5EE1	廡 (<CJK Ideograph>)
15754	0x5F49	彉 (<CJK Ideograph>)
15755	0x5FB2	徲 (<CJK Ideograph>)
15756	0x618B	憋 (<CJK Ideograph>)
15757	0x6183	憃 (<CJK Ideograph>)
15758	0x6179	慹 (<CJK Ideograph>)
15759	0x61B1	憱 (<CJK Ideograph>)
15760	0x61B0	憰 (<CJK Ideograph>)
15761	0x61A2	憢 (<CJK Ideograph>)
15762	0x6189	憉 (<CJK Ideograph>)
15763	0x619B	憛 (<CJK Ideograph>)
15764	0x6193	憓 (<CJK Ideograph>)
15765	0x61AF	憯 (<CJK Ideograph>)
15766	0x61AD	憭 (<CJK Ideograph>)
15767	0x619F	憟 (<CJK Ideograph>)
15768	0x6192	憒 (<CJK Ideograph>)
15769	0x61AA	憪 (<CJK Ideograph>)
15770	0x61A1	憡 (<CJK Ideograph>)
15771	0x618D	憍 (<CJK Ideograph>)
15772	0x6166	慦 (<CJK Ideograph>)
15773	0x61B3	憳 (<CJK Ideograph>)
15774	0x622D	戭 (<CJK Ideograph>)
15775	0x646E	摮 (<CJK Ideograph>)
15776	0x6470	摰 (<CJK Ideograph>)
15777	0x6496	撖 (<CJK Ideograph>)
15778	0x64A0	撠 (<CJK Ideograph>)
15779	0x6485	撅 (<CJK Ideograph>)
15780	0x6497	撗 (<CJK Ideograph>)
15781	0x649C	撜 (<CJK Ideograph>)
15782	0x648F	撏 (<CJK Ideograph>)
15783	0x648B	撋 (<CJK Ideograph>)
15784	0x648A	撊 (<CJK Ideograph>)
15785	0x648C	撌 (<CJK Ideograph>)
15786	0x64A3	撣 (<CJK Ideograph>)
15787	0x649F	撟 (<CJK Ideograph>)
15788	0x6468	摨 (<CJK Ideograph>)
15789	0x64B1	撱 (<CJK Ideograph>)
15790	0x6498	撘 (<CJK Ideograph>)
15791	0x6576	敶 (<CJK Ideograph>)
15792	0x657A	敺 (<CJK Ideograph>)
15793	0x6579	敹 (<CJK Ideograph>)
15794	0x657B	敻 (<CJK Ideograph>)
15795	0x65B2	斲 (<CJK Ideograph>)
15796	0x65B3	斳 (<CJK Ideograph>)
15797	0x66B5	暵 (<CJK Ideograph>)
15798	0x66B0	暰 (<CJK Ideograph>)
15799	0x66A9	暩 (<CJK Ideograph>)
15800	0x66B2	暲 (<CJK Ideograph>)
15801	0x66B7	暷 (<CJK Ideograph>)
15802	0x66AA	暪 (<CJK Ideograph>)
15803	0x66AF	暯 (<CJK Ideograph>)
15804	0x6A00	樀 (<CJK Ideograph>)
15805	0x6A06	樆 (<CJK Ideograph>)
15806	0x6A17	樗 (<CJK Ideograph>)
15807	0x69E5	槥 (<CJK Ideograph>)
15808	0x69F8	槸 (<CJK Ideograph>)
15809	0x6A15	樕 (<CJK Ideograph>)
15810	0x69F1	槱 (<CJK Ideograph>)
15811	0x69E4	槤 (<CJK Ideograph>)
15812	0x6A20	樠 (<CJK Ideograph>)
15813	0x69FF	槿 (<CJK Ideograph>)
15814	0x69EC	槬 (<CJK Ideograph>)
15815	0x69E2	槢 (<CJK Ideograph>)
15816	0x6A1B	樛 (<CJK Ideograph>)
15817	0x6A1D	樝 (<CJK Ideograph>)
15818	0x69FE	槾 (<CJK Ideograph>)
15819	0x6A27	樧 (<CJK Ideograph>)
15820	0x69F2	槲 (<CJK Ideograph>)
15821	0x69EE	槮 (<CJK Ideograph>)
15822	0x6A14	樔 (<CJK Ideograph>)
15823	0x69F7	槷 (<CJK Ideograph>)
15824	0x69E7	槧 (<CJK Ideograph>)
15825	0x6A40	橀 (<CJK Ideograph>)
15826	0x6A08	樈 (<CJK Ideograph>)
15827	0x69E6	槦 (<CJK Ideograph>)
15828	0x69FB	槻 (<CJK Ideograph>)
15829	0x6A0D	樍 (<CJK Ideograph>)
15830	0x69FC	槼 (<CJK Ideograph>)
15831	0x69EB	槫 (<CJK Ideograph>)
15832	0x6A09	樉 (<CJK Ideograph>)
15833	0x6A04	樄 (<CJK Ideograph>)
15834	0x6A18	樘 (<CJK Ideograph>)
15835	0x6A25	樥 (<CJK Ideograph>)
15836	0x6A0F	樏 (<CJK Ideograph>)
15837	0x69F6	槶 (<CJK Ideograph>)
15838	0x6A26	樦 (<CJK Ideograph>)
15839	0x6A07	樇 (<CJK Ideograph>)
15840	0x69F4	槴 (<CJK Ideograph>)
15841	0x6A16	樖 (<CJK Ideograph>)
15842	0x6B51	歑 (<CJK Ideograph>)
15843	0x6BA5	殥 (<CJK Ideograph>)
15844	0x6BA3	殣 (<CJK Ideograph>)
15845	0x6BA2	殢 (<CJK Ideograph>)
15846	0x6BA6	殦 (<CJK Ideograph>)
15847	0x6C01	氁 (<CJK Ideograph>)
15848	0x6C00	氀 (<CJK Ideograph>)
15849	0x6BFF	毿 (<CJK Ideograph>)
15850	0x6C02	氂 (<CJK Ideograph>)
15851	0x6F41	潁 (<CJK Ideograph>)
15852	0x6F26	漦 (<CJK Ideograph>)
15853	0x6F7E	潾 (<CJK Ideograph>)
15854	0x6F87	澇 (<CJK Ideograph>)
15855	0x6FC6	濆 (<CJK Ideograph>)
15856	0x6F92	澒 (<CJK Ideograph>)
"#

/-- encoding_tables/whatwg/index-big5.txt:14672-14828 -/
noncomputable def index101 : List Text := lines! r#"15857	0x6F8D	澍 (<CJK Ideograph>)
15858	0x6F89	澉 (<CJK Ideograph>)
15859	0x6F8C	澌 (<CJK Ideograph>)
15860	0x6F62	潢 (<CJK Ideograph>)
15861	0x6F4F	潏 (<CJK Ideograph>)
15862	0x6F85	澅 (<CJK Ideograph>)
15863	0x6F5A	潚 (<CJK Ideograph>)
15864	0x6F96	澖 (<CJK Ideograph>)
15865	0x6F76	潶 (<CJK Ideograph>)
15866	0x6F6C	潬 (<CJK Ideograph>)
15867	0x6F82	澂 (<CJK Ideograph>)
15868	0x6F55	潕 (<CJK Ideograph>)
15869	0x6F72	潲 (<CJK Ideograph>)
15870	0x6F52	潒 (<CJK Ideograph>)
15871	0x6F50	潐 (<CJK Ideograph>)
15872	0x6F57	潗 (<CJK Ideograph>)
15873	0x6F94	澔 (<CJK Ideograph>)
15874	0x6F93	澓 (<CJK Ideograph>)
15875	0x6F5D	潝 (<CJK Ideograph>)
15876	0x6F00	漀 (<CJK Ideograph>)
15877	0x6F61	潡 (<CJK Ideograph>)
15878	0x6F6B	潫 (<CJK Ideograph>)
15879	0x6F7D	潽 (<CJK Ideograph>)
15880	0x6F67	潧 (<CJK Ideograph>)
15881	0x6F90	澐 (<CJK Ideograph>)
15882	0x6F53	潓 (<CJK Ideograph>)
15883	0x6F8B	澋 (<CJK Ideograph>)
15884	0x6F69	潩 (<CJK Ideograph>)
15885	0x6F7F	潿 (<CJK Ideograph>)
15886	0x6F95	澕 (<CJK Ideograph>)
15887	0x6F63	潣 (<CJK Ideograph>)
15888	0x6F77	潷 (<CJK Ideograph>)
15889	0x6F6A	潪 (<CJK Ideograph>)
15890	0x6F7B	潻 (<CJK Ideograph>)
15891	0x71B2	熲 (<CJK Ideograph>)
15892	0x71AF	熯 (<CJK Ideograph>)
15893	0x719B	熛 (<CJK Ideograph>)
15894	0x71B0	熰 (<CJK Ideograph>)
15895	0x71A0	熠 (<CJK Ideograph>)
15896	0x719A	熚 (<CJK Ideograph>)
15897	0x71A9	熩 (<CJK Ideograph>)
15898	0x71B5	熵 (<CJK Ideograph>)
15899	0x719D	熝 (<CJK Ideograph>)
15900	0x71A5	熥 (<CJK Ideograph>)
15901	0x719E	熞 (<CJK Ideograph>)
15902	0x71A4	熤 (<CJK Ideograph>)
15903	0x71A1	熡 (<CJK Ideograph>)
15904	0x71AA	熪 (<CJK Ideograph>)
15905	0x719C	熜 (<CJK Ideograph>)
15906	0x71A7	熧 (<CJK Ideograph>)
15907	0x71B3	熳 (<CJK Ideograph>)
15908	0x7298	犘 (<CJK Ideograph>)
15909	0x729A	犚 (<CJK Ideograph>)
15910	0x7358	獘 (<CJK Ideograph>)
15911	0x7352	獒 (<CJK Ideograph>)
15912	0x735E	獞 (<CJK Ideograph>)
15913	0x735F	獟 (<CJK Ideograph>)
15914	0x7360	獠 (<CJK Ideograph>)
15915	0x735D	獝 (<CJK Ideograph>)
15916	0x735B	獛 (<CJK Ideograph>)
15917	0x7361	獡 (<CJK Ideograph>)
15918	0x735A	獚 (<CJK Ideograph>)
15919	0x7359	獙 (<CJK Ideograph>)
15920	0x7362	獢 (<CJK Ideograph>)
15921	0x7487	璇 (<CJK Ideograph>)
15922	0x7489	璉 (<CJK Ideograph>)
15923	0x748A	璊 (<CJK Ideograph>)
15924	0x7486	璆 (<CJK Ideograph>)
15925	0x7481	璁 (<CJK Ideograph>)
15926	0x747D	瑽 (<CJK Ideograph>)
15927	0x7485	璅 (<CJK Ideograph>)
15928	0x7488	璈 (<CJK Ideograph>)
15929	0x747C	瑼 (<CJK Ideograph>)
15930	0x7479	瑹 (<CJK Ideograph>)
15931	0x7508	甈 (<CJK Ideograph>)
15932	0x7507	甇 (<CJK Ideograph>)
15933	0x757E	畾 (<CJK Ideograph>)
15934	0x7625	瘥 (<CJK Ideograph>)
15935	0x761E	瘞 (<CJK Ideograph>)
15936	0x7619	瘙 (<CJK Ideograph>)
15937	0x761D	瘝 (<CJK Ideograph>)
15938	0x761C	瘜 (<CJK Ideograph>)
15939	0x7623	瘣 (<CJK Ideograph>)
15940	0x761A	瘚 (<CJK Ideograph>)
15941	0x7628	瘨 (<CJK Ideograph>)
15942	0x761B	瘛 (<CJK Ideograph>)
15943	0x769C	皜 (<CJK Ideograph>)
15944	0x769D	皝 (<CJK Ideograph>)
15945	0x769E	皞 (<CJK Ideograph>)
15946	0x769B	皛 (<CJK Ideograph>)
15947	0x778D	瞍 (<CJK Ideograph>)
15948	0x778F	瞏 (<CJK Ideograph>)
15949	0x7789	瞉 (<CJK Ideograph>)
15950	0x7788	瞈 (<CJK Ideograph>)
15951	0x78CD	磍 (<CJK Ideograph>)
15952	0x78BB	碻 (<CJK Ideograph>)
15953	0x78CF	磏 (<CJK Ideograph>)
15954	0x78CC	磌 (<CJK Ideograph>)
15955	0x78D1	磑 (<CJK Ideograph>)
15956	0x78CE	磎 (<CJK Ideograph>)
15957	0x78D4	磔 (<CJK Ideograph>)
15958	0x78C8	磈 (<CJK Ideograph>)
15959	0x78C3	磃 (<CJK Ideograph>)
15960	0x78C4	磄 (<CJK Ideograph>)
15961	0x78C9	磉 (<CJK Ideograph>)
15962	0x799A	禚 (<CJK Ideograph>)
15963	0x79A1	禡 (<CJK Ideograph>)
15964	0x79A0	禠 (<CJK Ideograph>)
15965	0x799C	禜 (<CJK Ideograph>)
15966	0x79A2	禢 (<CJK Ideograph>)
15967	0x799B	禛 (<CJK Ideograph>)
15968	0x6B76	歶 (<CJK Ideograph>)
15969	0x7A39	稹 (<CJK Ideograph>)
15970	0x7AB2	窲 (<CJK Ideograph>)
15971	0x7AB4	窴 (<CJK Ideograph>)
15972	0x7AB3	窳 (<CJK Ideograph>)
15973	0x7BB7	箷 (<CJK Ideograph>)
15974	0x7BCB	篋 (<CJK Ideograph>)
15975	0x7BBE	箾 (<CJK Ideograph>)
15976	0x7BAC	箬 (<CJK Ideograph>)
15977	0x7BCE	篎 (<CJK Ideograph>)
15978	0x7BAF	箯 (<CJK Ideograph>)
15979	0x7BB9	箹 (<CJK Ideograph>)
15980	0x7BCA	篊 (<CJK Ideograph>)
15981	0x7BB5	箵 (<CJK Ideograph>)
15982	0x7CC5	糅 (<CJK Ideograph>)
15983	0x7CC8	糈 (<CJK Ideograph>)
15984	0x7CCC	糌 (<CJK Ideograph>)
15985	0x7CCB	糋 (<CJK Ideograph>)
15986	0x7DF7	緷 (<CJK Ideograph>)
15987	0x7DDB	緛 (<CJK Ideograph>)
15988	0x7DEA	緪 (<CJK Ideograph>)
15989	0x7DE7	緧 (<CJK Ideograph>)
15990	0x7DD7	緗 (<CJK Ideograph>)
15991	0x7DE1	緡 (<CJK Ideograph>)
15992	0x7E03	縃 (<CJK Ideograph>)
15993	0x7DFA	緺 (<CJK Ideograph>)
15994	0x7DE6	緦 (<CJK Ideograph>)
15995	0x7DF6	緶 (<CJK Ideograph>)
15996	0x7DF1	緱 (<CJK Ideograph>)
15997	0x7DF0	緰 (<CJK Ideograph>)
15998	0x7DEE	緮 (<CJK Ideograph>)
15999	0x7DDF	緟 (<CJK Ideograph>)
16000	0x7F76	罶 (<CJK Ideograph>)
16001	0x7FAC	羬 (<CJK Ideograph>)
16002	0x7FB0	羰 (<CJK Ideograph>)
16003	0x7FAD	羭 (<CJK Ideograph>)
16004	0x7FED	翭 (<CJK Ideograph>)
16005	0x7FEB	翫 (<CJK Ideograph>)
16006	0x7FEA	翪 (<CJK Ideograph>)
16007	0x7FEC	翬 (<CJK Ideograph>)
16008	0x7FE6	翦 (<CJK Ideograph>)
16009	0x7FE8	翨 (<CJK Ideograph>)
16010	0x8064	聤 (<CJK Ideograph>)
16011	0x8067	聧 (<CJK Ideograph>)
16012	0x81A3	膣 (<CJK Ideograph>)
16013	0x819F	膟 (<CJK Ideograph>)
"#

/-- encoding_tables/whatwg/index-big5.txt:14829-14985 -/
noncomputable def index102 : List Text := lines! r#"16014	0x819E	膞 (<CJK Ideograph>)
16015	0x8195	膕 (<CJK Ideograph>)
16016	0x81A2	膢 (<CJK Ideograph>)
16017	0x8199	膙 (<CJK Ideograph>)
16018	0x8197	膗 (<CJK Ideograph>)
16019	0x8216	舖 (<CJK Ideograph>)
16020	0x824F	艏 (<CJK Ideograph>)
16021	0x8253	艓 (<CJK Ideograph>)
16022	0x8252	艒 (<CJK Ideograph>)
16023	0x8250	艐 (<CJK Ideograph>)
16024	0x824E	艎 (<CJK Ideograph>)
16025	0x8251	艑 (<CJK Ideograph>)
16026	0x8524	蔤 (<CJK Ideograph>)
16027	0x853B	蔻 (<CJK Ideograph>)
16028	0x850F	蔏 (<CJK Ideograph>)
16029	0x8500	蔀 (<CJK Ideograph>)
16030	0x8529	蔩 (<CJK Ideograph>)
16031	0x850E	蔎 (<CJK Ideograph>)
16032	0x8509	蔉 (<CJK Ideograph>)
16033	0x850D	蔍 (<CJK Ideograph>)
16034	0x851F	蔟 (<CJK Ideograph>)
16035	0x850A	蔊 (<CJK Ideograph>)
16036	0x8527	蔧 (<CJK Ideograph>)
16037	0x851C	蔜 (<CJK Ideograph>)
16038	0x84FB	蓻 (<CJK Ideograph>)
16039	0x852B	蔫 (<CJK Ideograph>)
16040	0x84FA	蓺 (<CJK Ideograph>)
16041	0x8508	蔈 (<CJK Ideograph>)
16042	0x850C	蔌 (<CJK Ideograph>)
16043	0x84F4	蓴 (<CJK Ideograph>)
16044	0x852A	蔪 (<CJK Ideograph>)
16045	0x84F2	蓲 (<CJK Ideograph>)
16046	0x8515	蔕 (<CJK Ideograph>)
16047	0x84F7	蓷 (<CJK Ideograph>)
16048	0x84EB	蓫 (<CJK Ideograph>)
16049	0x84F3	蓳 (<CJK Ideograph>)
16050	0x84FC	蓼 (<CJK Ideograph>)
16051	0x8512	蔒 (<CJK Ideograph>)
16052	0x84EA	蓪 (<CJK Ideograph>)
16053	0x84E9	蓩 (<CJK Ideograph>)
16054	0x8516	蔖 (<CJK Ideograph>)
16055	0x84FE	蓾 (<CJK Ideograph>)
16056	0x8528	蔨 (<CJK Ideograph>)
16057	0x851D	蔝 (<CJK Ideograph>)
16058	0x852E	蔮 (<CJK Ideograph>)
16059	0x8502	蔂 (<CJK Ideograph>)
16060	0x84FD	蓽 (<CJK Ideograph>)
16061	0x851E	蔞 (<CJK Ideograph>)
16062	0x84F6	蓶 (<CJK Ideograph>)
16063	0x8531	蔱 (<CJK Ideograph>)
16064	0x8526	蔦 (<CJK Ideograph>)
16065	0x84E7	蓧 (<CJK Ideograph>)
16066	0x84E8	蓨 (<CJK Ideograph>)
16067	0x84F0	蓰 (<CJK Ideograph>)
16068	0x84EF	蓯 (<CJK Ideograph>)
16069	0x84F9	蓹 (<CJK Ideograph>)
16070	0x8518	蔘 (<CJK Ideograph>)
16071	0x8520	蔠 (<CJK Ideograph>)
16072	0x8530	蔰 (<CJK Ideograph>)
16073	0x850B	蔋 (<CJK Ideograph>)
16074	0x8519	蔙 (<CJK Ideograph>)
16075	0x852F	蔯 (<CJK Ideograph>)
16076	0x8662	虢 (<CJK Ideograph>)
16077	0x8756	蝖 (<CJK Ideograph>)
16078	0x8763	蝣 (<CJK Ideograph>)
16079	0x8764	蝤 (<CJK Ideograph>)
16080	0x8777	蝷 (<CJK Ideograph>)
16081	0x87E1	蟡 (<CJK Ideograph>)
16082	0x8773	蝳 (<CJK Ideograph>)
16083	0x8758	蝘 (<CJK Ideograph>)
16084	0x8754	蝔 (<CJK Ideograph>)
16085	0x875B	蝛 (<CJK Ideograph>)
16086	0x8752	蝒 (<CJK Ideograph>)
16087	0x8761	蝡 (<CJK Ideograph>)
16088	0x875A	蝚 (<CJK Ideograph>)
16089	0x8751	蝑 (<CJK Ideograph>)
16090	0x875E	蝞 (<CJK Ideograph>)
16091	0x876D	蝭 (<CJK Ideograph>)
16092	0x876A	蝪 (<CJK Ideograph>)
16093	0x8750	蝐 (<CJK Ideograph>)
16094	0x874E	蝎 (<CJK Ideograph>)
16095	0x875F	蝟 (<CJK Ideograph>)
16096	0x875D	蝝 (<CJK Ideograph>)
16097	0x876F	蝯 (<CJK Ideograph>)
16098	0x876C	蝬 (<CJK Ideograph>)
16099	0x877A	蝺 (<CJK Ideograph>)
16100	0x876E	蝮 (<CJK Ideograph>)
16101	0x875C	蝜 (<CJK Ideograph>)
16102	0x8765	蝥 (<CJK Ideograph>)
16103	0x874F	蝏 (<CJK Ideograph>)
16104	0x877B	蝻 (<CJK Ideograph>)
16105	0x8775	蝵 (<CJK Ideograph>)
16106	0x8762	蝢 (<CJK Ideograph>)
16107	0x8767	蝧 (<CJK Ideograph>)
16108	0x8769	蝩 (<CJK Ideograph>)
16109	0x885A	衚 (<CJK Ideograph>)
16110	0x8905	褅 (<CJK Ideograph>)
16111	0x890C	褌 (<CJK Ideograph>)
16112	0x8914	褔 (<CJK Ideograph>)
16113	0x890B	褋 (<CJK Ideograph>)
16114	0x8917	褗 (<CJK Ideograph>)
16115	0x8918	褘 (<CJK Ideograph>)
16116	0x8919	褙 (<CJK Ideograph>)
16117	0x8906	褆 (<CJK Ideograph>)
16118	0x8916	褖 (<CJK Ideograph>)
16119	0x8911	褑 (<CJK Ideograph>)
16120	0x890E	褎 (<CJK Ideograph>)
16121	0x8909	褉 (<CJK Ideograph>)
16122	0x89A2	覢 (<CJK Ideograph>)
16123	0x89A4	覤 (<CJK Ideograph>)
16124	0x89A3	覣 (<CJK Ideograph>)
16125	0x89ED	觭 (<CJK Ideograph>)
16126	0x89F0	觰 (<CJK Ideograph>)
16127	0x89EC	觬 (<CJK Ideograph>)
16128	0x8ACF	諏 (<CJK Ideograph>)
16129	0x8AC6	諆 (<CJK Ideograph>)
16130	0x8AB8	誸 (<CJK Ideograph>)
16131	0x8AD3	諓 (<CJK Ideograph>)
16132	0x8AD1	諑 (<CJK Ideograph>)
16133	0x8AD4	諔 (<CJK Ideograph>)
16134	0x8AD5	諕 (<CJK Ideograph>)
16135	0x8ABB	誻 (<CJK Ideograph>)
16136	0x8AD7	諗 (<CJK Ideograph>)
16137	0x8ABE	誾 (<CJK Ideograph>)
16138	0x8AC0	諀 (<CJK Ideograph>)
16139	0x8AC5	諅 (<CJK Ideograph>)
16140	0x8AD8	諘 (<CJK Ideograph>)
16141	0x8AC3	諃 (<CJK Ideograph>)
16142	0x8ABA	誺 (<CJK Ideograph>)
16143	0x8ABD	誽 (<CJK Ideograph>)
16144	0x8AD9	諙 (<CJK Ideograph>)
16145	0x8C3E	谾 (<CJK Ideograph>)
16146	0x8C4D	豍 (<CJK Ideograph>)
16147	0x8C8F	貏 (<CJK Ideograph>)
16148	0x8CE5	賥 (<CJK Ideograph>)
16149	0x8CDF	賟 (<CJK Ideograph>)
16150	0x8CD9	賙 (<CJK Ideograph>)
16151	0x8CE8	賨 (<CJK Ideograph>)
16152	0x8CDA	賚 (<CJK Ideograph>)
16153	0x8CDD	賝 (<CJK Ideograph>)
16154	0x8CE7	賧 (<CJK Ideograph>)
16155	0x8DA0	趠 (<CJK Ideograph>)
16156	0x8D9C	趜 (<CJK Ideograph>)
16157	0x8DA1	趡 (<CJK Ideograph>)
16158	0x8D9B	趛 (<CJK Ideograph>)
16159	0x8E20	踠 (<CJK Ideograph>)
16160	0x8E23	踣 (<CJK Ideograph>)
16161	0x8E25	踥 (<CJK Ideograph>)
16162	0x8E24	踤 (<CJK Ideograph>)
16163	0x8E2E	踮 (<CJK Ideograph>)
16164	0x8E15	踕 (<CJK Ideograph>)
16165	0x8E1B	踛 (<CJK Ideograph>)
16166	0x8E16	踖 (<CJK Ideograph>)
16167	0x8E11	踑 (<CJK Ideograph>)
16168	0x8E19	踙 (<CJK Ideograph>)
16169	0x8E26	踦 (<CJK Ideograph>)
16170	0x8E27	踧 (<CJK Ideograph>)
"#

/-- encoding_tables/whatwg/index-big5.txt:14986-15142 -/
noncomputable def index103 : List Text := lines! r#"16171	0x8E14	踔 (<CJK Ideograph>)
16172	0x8E12	踒 (<CJK Ideograph>)
16173	0x8E18	踘 (<CJK Ideograph>)
16174	0x8E13	踓 (<CJK Ideograph>)
16175	0x8E1C	踜 (<CJK Ideograph>)
16176	0x8E17	踗 (<CJK Ideograph>)
16177	0x8E1A	踚 (<CJK Ideograph>)
16178	0x8F2C	輬 (<CJK Ideograph>)
16179	0x8F24	輤 (<CJK Ideograph>)
16180	0x8F18	輘 (<CJK Ideograph>)
16181	0x8F1A	輚 (<CJK Ideograph>)
16182	0x8F20	輠 (<CJK Ideograph>)
16183	0x8F23	輣 (<CJK Ideograph>)
16184	0x8F16	輖 (<CJK Ideograph>)
16185	0x8F17	輗 (<CJK Ideograph>)
16186	0x9073	遳 (<CJK Ideograph>)
16187	0x9070	遰 (<CJK Ideograph>)
16188	0x906F	遯 (<CJK Ideograph>)
16189	0x9067	遧 (<CJK Ideograph>)
16190	0x906B	遫 (<CJK Ideograph>)
16191	0x912F	鄯 (<CJK Ideograph>)
16192	0x912B	鄫 (<CJK Ideograph>)
16193	0x9129	鄩 (<CJK Ideograph>)
16194	0x912A	鄪 (<CJK Ideograph>)
16195	0x9132	鄲 (<CJK Ideograph>)
16196	0x9126	鄦 (<CJK Ideograph>)
16197	0x912E	鄮 (<CJK Ideograph>)
16198	0x9185	醅 (<CJK Ideograph>)
16199	0x9186	醆 (<CJK Ideograph>)
16200	0x918A	醊 (<CJK Ideograph>)
16201	0x9181	醁 (<CJK Ideograph>)
16202	0x9182	醂 (<CJK Ideograph>)
16203	0x9184	醄 (<CJK Ideograph>)
16204	0x9180	醀 (<CJK Ideograph>)
16205	0x92D0	鋐 (<CJK Ideograph>)
16206	0x92C3	鋃 (<CJK Ideograph>)
16207	0x92C4	鋄 (<CJK Ideograph>)
16208	0x92C0	鋀 (<CJK Ideograph>)
16209	0x92D9	鋙 (<CJK Ideograph>)
16210	0x92B6	銶 (<CJK Ideograph>)
16211	0x92CF	鋏 (<CJK Ideograph>)
16212	0x92F1	鋱 (<CJK Ideograph>)
16213	0x92DF	鋟 (<CJK Ideograph>)
16214	0x92D8	鋘 (<CJK Ideograph>)
16215	0x92E9	鋩 (<CJK Ideograph>)
16216	0x92D7	鋗 (<CJK Ideograph>)
16217	0x92DD	鋝 (<CJK Ideograph>)
16218	0x92CC	鋌 (<CJK Ideograph>)
16219	0x92EF	鋯 (<CJK Ideograph>)
16220	0x92C2	鋂 (<CJK Ideograph>)
16221	0x92E8	鋨 (<CJK Ideograph>)
16222	0x92CA	鋊 (<CJK Ideograph>)
16223	0x92C8	鋈 (<CJK Ideograph>)
16224	0x92CE	鋎 (<CJK Ideograph>)
16225	0x92E6	鋦 (<CJK Ideograph>)
16226	0x92CD	鋍 (<CJK Ideograph>)
16227	0x92D5	鋕 (<CJK Ideograph>)
16228	0x92C9	鋉 (<CJK Ideograph>)
16229	0x92E0	鋠 (<CJK Ideograph>)
16230	0x92DE	鋞 (<CJK Ideograph>)
16231	0x92E7	鋧 (<CJK Ideograph>)
16232	0x92D1	鋑 (<CJK Ideograph>)
16233	0x92D3	鋓 (<CJK Ideograph>)
16234	0x92B5	銵 (<CJK Ideograph>)
16235	0x92E1	鋡 (<CJK Ideograph>)
16236	0x92C6	鋆 (<CJK Ideograph>)
16237	0x92B4	銴 (<CJK Ideograph>)
16238	0x957C	镼 (<CJK Ideograph>)
16239	0x95AC	閬 (<CJK Ideograph>)
16240	0x95AB	閫 (<CJK Ideograph>)
16241	0x95AE	閮 (<CJK Ideograph>)
16242	0x95B0	閰 (<CJK Ideograph>)
16243	0x96A4	隤 (<CJK Ideograph>)
16244	0x96A2	隢 (<CJK Ideograph>)
16245	0x96D3	雓 (<CJK Ideograph>)
16246	0x9705	霅 (<CJK Ideograph>)
16247	0x9708	霈 (<CJK Ideograph>)
16248	0x9702	霂 (<CJK Ideograph>)
16249	0x975A	靚 (<CJK Ideograph>)
16250	0x978A	鞊 (<CJK Ideograph>)
16251	0x978E	鞎 (<CJK Ideograph>)
16252	0x9788	鞈 (<CJK Ideograph>)
16253	0x97D0	韐 (<CJK Ideograph>)
16254	0x97CF	韏 (<CJK Ideograph>)
16255	0x981E	頞 (<CJK Ideograph>)
16256	0x981D	頝 (<CJK Ideograph>)
16257	0x9826	頦 (<CJK Ideograph>)
16258	0x9829	頩 (<CJK Ideograph>)
16259	0x9828	頨 (<CJK Ideograph>)
16260	0x9820	頠 (<CJK Ideograph>)
16261	0x981B	頛 (<CJK Ideograph>)
16262	0x9827	頧 (<CJK Ideograph>)
16263	0x98B2	颲 (<CJK Ideograph>)
16264	0x9908	餈 (<CJK Ideograph>)
16265	0x98FA	飺 (<CJK Ideograph>)
16266	0x9911	餑 (<CJK Ideograph>)
16267	0x9914	餔 (<CJK Ideograph>)
16268	0x9916	餖 (<CJK Ideograph>)
16269	0x9917	餗 (<CJK Ideograph>)
16270	0x9915	餕 (<CJK Ideograph>)
16271	0x99DC	駜 (<CJK Ideograph>)
16272	0x99CD	駍 (<CJK Ideograph>)
16273	0x99CF	駏 (<CJK Ideograph>)
16274	0x99D3	駓 (<CJK Ideograph>)
16275	0x99D4	駔 (<CJK Ideograph>)
16276	0x99CE	駎 (<CJK Ideograph>)
16277	0x99C9	駉 (<CJK Ideograph>)
16278	0x99D6	駖 (<CJK Ideograph>)
16279	0x99D8	駘 (<CJK Ideograph>)
16280	0x99CB	駋 (<CJK Ideograph>)
16281	0x99D7	駗 (<CJK Ideograph>)
16282	0x99CC	駌 (<CJK Ideograph>)
16283	0x9AB3	骳 (<CJK Ideograph>)
16284	0x9AEC	髬 (<CJK Ideograph>)
16285	0x9AEB	髫 (<CJK Ideograph>)
16286	0x9AF3	髳 (<CJK Ideograph>)
16287	0x9AF2	髲 (<CJK Ideograph>)
16288	0x9AF1	髱 (<CJK Ideograph>)
16289	0x9B46	魆 (<CJK Ideograph>)
16290	0x9B43	魃 (<CJK Ideograph>)
16291	0x9B67	魧 (<CJK Ideograph>)
16292	0x9B74	魴 (<CJK Ideograph>)
16293	0x9B71	魱 (<CJK Ideograph>)
16294	0x9B66	魦 (<CJK Ideograph>)
16295	0x9B76	魶 (<CJK Ideograph>)
16296	0x9B75	魵 (<CJK Ideograph>)
16297	0x9B70	魰 (<CJK Ideograph>)
16298	0x9B68	魨 (<CJK Ideograph>)
16299	0x9B64	魤 (<CJK Ideograph>)
16300	0x9B6C	魬 (<CJK Ideograph>)
16301	0x9CFC	鳼 (<CJK Ideograph>)
16302	0x9CFA	鳺 (<CJK Ideograph>)
16303	0x9CFD	鳽 (<CJK Ideograph>)
16304	0x9CFF	鳿 (<CJK Ideograph>)
16305	0x9CF7	鳷 (<CJK Ideograph>)
16306	0x9D07	鴇 (<CJK Ideograph>)
16307	0x9D00	鴀 (<CJK Ideograph>)
16308	0x9CF9	鳹 (<CJK Ideograph>)
16309	0x9CFB	鳻 (<CJK Ideograph>)
16310	0x9D08	鴈 (<CJK Ideograph>)
16311	0x9D05	鴅 (<CJK Ideograph>)
16312	0x9D04	鴄 (<CJK Ideograph>)
16313	0x9E83	麃 (<CJK Ideograph>)
16314	0x9ED3	黓 (<CJK Ideograph>)
16315	0x9F0F	鼏 (<CJK Ideograph>)
16316	0x9F10	鼐 (<CJK Ideograph>)
16317	0x511C	儜 (<CJK Ideograph>)
16318	0x5113	儓 (<CJK Ideograph>)
16319	0x5117	儗 (<CJK Ideograph>)
16320	0x511A	儚 (<CJK Ideograph>)
16321	0x5111	儑 (<CJK Ideograph>)
16322	0x51DE	凞 (<CJK Ideograph>)
16323	0x5334	匴 (<CJK Ideograph>)
16324	0x53E1	叡 (<CJK Ideograph>)
16325	0x5670	噰 (<CJK Ideograph>)
16326	0x5660	噠 (<CJK Ideograph>)
16327	0x566E	噮 (<CJK Ideograph>)
"#

/-- encoding_tables/whatwg/index-big5.txt:15143-15299 -/
noncomputable def index104 : List Text := lines! r#"16328	0x5673	噳 (<CJK Ideograph>)
16329	0x5666	噦 (<CJK Ideograph>)
16330	0x5663	噣 (<CJK Ideograph>)
16331	0x566D	噭 (<CJK Ideograph>)
16332	0x5672	噲 (<CJK Ideograph>)
16333	0x565E	噞 (<CJK Ideograph>)
16334	0x5677	噷 (<CJK Ideograph>)
16335	0x571C	圜 (<CJK Ideograph>)
16336	0x571B	圛 (<CJK Ideograph>)
16337	0x58C8	壈 (<CJK Ideograph>)
16338	0x58BD	墽 (<CJK Ideograph>)
16339	0x58C9	壉 (<CJK Ideograph>)
16340	0x58BF	墿 (<CJK Ideograph>)
16341	0x58BA	墺 (<CJK Ideograph>)
16342	0x58C2	壂 (<CJK Ideograph>)
16343	0x58BC	墼 (<CJK Ideograph>)
16344	0x58C6	壆 (<CJK Ideograph>)
16345	0x5B17	嬗 (<CJK Ideograph>)
16346	0x5B19	嬙 (<CJK Ideograph>)
16347	0x5B1B	嬛 (<CJK Ideograph>)
16348	0x5B21	嬡 (<CJK Ideograph>)
16349	0x5B14	嬔 (<CJK Ideograph>)
16350	0x5B13	嬓 (<CJK Ideograph>)
16351	0x5B10	嬐 (<CJK Ideograph>)
16352	0x5B16	嬖 (<CJK Ideograph>)
16353	0x5B28	嬨 (<CJK Ideograph>)
16354	0x5B1A	嬚 (<CJK Ideograph>)
16355	0x5B20	嬠 (<CJK Ideograph>)
16356	0x5B1E	嬞 (<CJK Ideograph>)
16357	0x5BEF	寯 (<CJK Ideograph>)
16358	0x5DAC	嶬 (<CJK Ideograph>)
16359	0x5DB1	嶱 (<CJK Ideograph>)
16360	0x5DA9	嶩 (<CJK Ideograph>)
16361	0x5DA7	嶧 (<CJK Ideograph>)
16362	0x5DB5	嶵 (<CJK Ideograph>)
16363	0x5DB0	嶰 (<CJK Ideograph>)
16364	0x5DAE	嶮 (<CJK Ideograph>)
16365	0x5DAA	嶪 (<CJK Ideograph>)
16366	0x5DA8	嶨 (<CJK Ideograph>)
16367	0x5DB2	嶲 (<CJK Ideograph>)
16368	0x5DAD	嶭 (<CJK Ideograph>)
16369	0x5DAF	嶯 (<CJK Ideograph>)
16370	0x5DB4	嶴 (<CJK Ideograph>)
16371	0x5E67	幧 (<CJK Ideograph>)
16372	0x5E68	幨 (<CJK Ideograph>)
16373	0x5E66	幦 (<CJK Ideograph>)
16374	0x5E6F	幯 (<CJK Ideograph>)
16375	0x5EE9	廩 (<CJK Ideograph>)
16376	0x5EE7	廧 (<CJK Ideograph>)
16377	0x5EE6	廦 (<CJK Ideograph>)
16378	0x5EE8	廨 (<CJK Ideograph>)
16379	0x5EE5	廥 (<CJK Ideograph>)
16380	0x5F4B	彋 (<CJK Ideograph>)
16381	0x5FBC	徼 (<CJK Ideograph>)
16382	0x619D	憝 (<CJK Ideograph>)
16383	0x61A8	憨 (<CJK Ideograph>)
16384	0x6196	憖 (<CJK Ideograph>)
16385	0x61C5	懅 (<CJK Ideograph>)
16386	0x61B4	憴 (<CJK Ideograph>)
16387	0x61C6	懆 (<CJK Ideograph>)
16388	0x61C1	懁 (<CJK Ideograph>)
16389	0x61CC	懌 (<CJK Ideograph>)
16390	0x61BA	憺 (<CJK Ideograph>)
16391	0x61BF	憿 (<CJK Ideograph>)
16392	0x61B8	憸 (<CJK Ideograph>)
16393	0x618C	憌 (<CJK Ideograph>)
16394	0x64D7	擗 (<CJK Ideograph>)
16395	0x64D6	擖 (<CJK Ideograph>)
16396	0x64D0	擐 (<CJK Ideograph>)
16397	0x64CF	擏 (<CJK Ideograph>)
16398	0x64C9	擉 (<CJK Ideograph>)
16399	0x64BD	撽 (<CJK Ideograph>)
16400	0x6489	撉 (<CJK Ideograph>)
16401	0x64C3	擃 (<CJK Ideograph>)
16402	0x64DB	擛 (<CJK Ideograph>)
16403	0x64F3	擳 (<CJK Ideograph>)
16404	0x64D9	擙 (<CJK Ideograph>)
16405	0x6533	攳 (<CJK Ideograph>)
16406	0x657F	敿 (<CJK Ideograph>)
16407	0x657C	敼 (<CJK Ideograph>)
16408	0x65A2	斢 (<CJK Ideograph>)
16409	0x66C8	曈 (<CJK Ideograph>)
16410	0x66BE	暾 (<CJK Ideograph>)
16411	0x66C0	曀 (<CJK Ideograph>)
16412	0x66CA	曊 (<CJK Ideograph>)
16413	0x66CB	曋 (<CJK Ideograph>)
16414	0x66CF	曏 (<CJK Ideograph>)
16415	0x66BD	暽 (<CJK Ideograph>)
16416	0x66BB	暻 (<CJK Ideograph>)
16417	0x66BA	暺 (<CJK Ideograph>)
16418	0x66CC	曌 (<CJK Ideograph>)
16419	0x6723	朣 (<CJK Ideograph>)
16420	0x6A34	樴 (<CJK Ideograph>)
16421	0x6A66	橦 (<CJK Ideograph>)
16422	0x6A49	橉 (<CJK Ideograph>)
16423	0x6A67	橧 (<CJK Ideograph>)
16424	0x6A32	樲 (<CJK Ideograph>)
16425	0x6A68	橨 (<CJK Ideograph>)
16426	0x6A3E	樾 (<CJK Ideograph>)
16427	0x6A5D	橝 (<CJK Ideograph>)
16428	0x6A6D	橭 (<CJK Ideograph>)
16429	0x6A76	橶 (<CJK Ideograph>)
16430	0x6A5B	橛 (<CJK Ideograph>)
16431	0x6A51	橑 (<CJK Ideograph>)
16432	0x6A28	樨 (<CJK Ideograph>)
16433	0x6A5A	橚 (<CJK Ideograph>)
16434	0x6A3B	樻 (<CJK Ideograph>)
16435	0x6A3F	樿 (<CJK Ideograph>)
16436	0x6A41	橁 (<CJK Ideograph>)
16437	0x6A6A	橪 (<CJK Ideograph>)
16438	0x6A64	橤 (<CJK Ideograph>)
16439	0x6A50	橐 (<CJK Ideograph>)
16440	0x6A4F	橏 (<CJK Ideograph>)
16441	0x6A54	橔 (<CJK Ideograph>)
16442	0x6A6F	橯 (<CJK Ideograph>)
16443	0x6A69	橩 (<CJK Ideograph>)
16444	0x6A60	橠 (<CJK Ideograph>)
16445	0x6A3C	樼 (<CJK Ideograph>)
16446	0x6A5E	橞 (<CJK Ideograph>)
16447	0x6A56	橖 (<CJK Ideograph>)
16448	0x6A55	橕 (<CJK Ideograph>)
16449	0x6A4D	橍 (<CJK Ideograph>)
16450	0x6A4E	橎 (<CJK Ideograph>)
16451	0x6A46	橆 (<CJK Ideograph>)
16452	0x6B55	歕 (<CJK Ideograph>)
16453	0x6B54	歔 (<CJK Ideograph>)
16454	0x6B56	歖 (<CJK Ideograph>)
16455	0x6BA7	殧 (<CJK Ideograph>)
16456	0x6BAA	殪 (<CJK Ideograph>)
16457	0x6BAB	殫 (<CJK Ideograph>)
16458	0x6BC8	毈 (<CJK Ideograph>)
16459	0x6BC7	毇 (<CJK Ideograph>)
16460	0x6C04	氄 (<CJK Ideograph>)
16461	0x6C03	氃 (<CJK Ideograph>)
16462	0x6C06	氆 (<CJK Ideograph>)
16463	0x6FAD	澭 (<CJK Ideograph>)
16464	0x6FCB	濋 (<CJK Ideograph>)
16465	0x6FA3	澣 (<CJK Ideograph>)
16466	0x6FC7	濇 (<CJK Ideograph>)
16467	0x6FBC	澼 (<CJK Ideograph>)
16468	0x6FCE	濎 (<CJK Ideograph>)
16469	0x6FC8	濈 (<CJK Ideograph>)
16470	0x6F5E	潞 (<CJK Ideograph>)
16471	0x6FC4	濄 (<CJK Ideograph>)
16472	0x6FBD	澽 (<CJK Ideograph>)
16473	0x6F9E	澞 (<CJK Ideograph>)
16474	0x6FCA	濊 (<CJK Ideograph>)
16475	0x6FA8	澨 (<CJK Ideograph>)
16476	0x7004	瀄 (<CJK Ideograph>)
16477	0x6FA5	澥 (<CJK Ideograph>)
16478	0x6FAE	澮 (<CJK Ideograph>)
16479	0x6FBA	澺 (<CJK Ideograph>)
16480	0x6FAC	澬 (<CJK Ideograph>)
16481	0x6FAA	澪 (<CJK Ideograph>)
16482	0x6FCF	濏 (<CJK Ideograph>)
16483	0x6FBF	澿 (<CJK Ideograph>)
16484	0x6FB8	澸 (<CJK Ideograph>)
"#

/-- encoding_tables/whatwg/index-big5.txt:15300-15456 -/
noncomputable def index105 : List Text := lines! r#"16485	0x6FA2	澢 (<CJK Ideograph>)
16486	0x6FC9	濉 (<CJK Ideograph>)
16487	0x6FAB	澫 (<CJK Ideograph>)
16488	0x6FCD	濍 (<CJK Ideograph>)
16489	0x6FAF	澯 (<CJK Ideograph>)
16490	0x6FB2	澲 (<CJK Ideograph>)
16491	0x6FB0	澰 (<CJK Ideograph>)
16492	0x71C5	燅 (<CJK Ideograph>)
16493	0x71C2	燂 (<CJK Ideograph>)
16494	0x71BF	熿 (<CJK Ideograph>)
16495	0x71B8	熸 (<CJK Ideograph>)
16496	0x71D6	燖 (<CJK Ideograph>)
16497	0x71C0	燀 (<CJK Ideograph>)
16498	0x71C1	燁 (<CJK Ideograph>)
16499	0x71CB	燋 (<CJK Ideograph>)
16500	0x71D4	燔 (<CJK Ideograph>)
16501	0x71CA	燊 (<CJK Ideograph>)
16502	0x71C7	燇 (<CJK Ideograph>)
16503	0x71CF	燏 (<CJK Ideograph>)
16504	0x71BD	熽 (<CJK Ideograph>)
16505	0x71D8	燘 (<CJK Ideograph>)
16506	0x71BC	熼 (<CJK Ideograph>)
16507	0x71C6	燆 (<CJK Ideograph>)
16508	0x71DA	燚 (<CJK Ideograph>)
16509	0x71DB	燛 (<CJK Ideograph>)
16510	0x729D	犝 (<CJK Ideograph>)
16511	0x729E	犞 (<CJK Ideograph>)
16512	0x7369	獩 (<CJK Ideograph>)
16513	0x7366	獦 (<CJK Ideograph>)
16514	0x7367	獧 (<CJK Ideograph>)
16515	0x736C	獬 (<CJK Ideograph>)
16516	0x7365	獥 (<CJK Ideograph>)
16517	0x736B	獫 (<CJK Ideograph>)
16518	0x736A	獪 (<CJK Ideograph>)
16519	0x747F	瑿 (<CJK Ideograph>)
16520	0x749A	璚 (<CJK Ideograph>)
16521	0x74A0	璠 (<CJK Ideograph>)
16522	0x7494	璔 (<CJK Ideograph>)
16523	0x7492	璒 (<CJK Ideograph>)
16524	0x7495	璕 (<CJK Ideograph>)
16525	0x74A1	璡 (<CJK Ideograph>)
16526	0x750B	甋 (<CJK Ideograph>)
16527	0x7580	疀 (<CJK Ideograph>)
16528	0x762F	瘯 (<CJK Ideograph>)
16529	0x762D	瘭 (<CJK Ideograph>)
16530	0x7631	瘱 (<CJK Ideograph>)
16531	0x763D	瘽 (<CJK Ideograph>)
16532	0x7633	瘳 (<CJK Ideograph>)
16533	0x763C	瘼 (<CJK Ideograph>)
16534	0x7635	瘵 (<CJK Ideograph>)
16535	0x7632	瘲 (<CJK Ideograph>)
16536	0x7630	瘰 (<CJK Ideograph>)
16537	0x76BB	皻 (<CJK Ideograph>)
16538	0x76E6	盦 (<CJK Ideograph>)
16539	0x779A	瞚 (<CJK Ideograph>)
16540	0x779D	瞝 (<CJK Ideograph>)
16541	0x77A1	瞡 (<CJK Ideograph>)
16542	0x779C	瞜 (<CJK Ideograph>)
16543	0x779B	瞛 (<CJK Ideograph>)
16544	0x77A2	瞢 (<CJK Ideograph>)
16545	0x77A3	瞣 (<CJK Ideograph>)
16546	0x7795	瞕 (<CJK Ideograph>)
16547	0x7799	瞙 (<CJK Ideograph>)
16548	0x7797	瞗 (<CJK Ideograph>)
16549	0x78DD	磝 (<CJK Ideograph>)
16550	0x78E9	磩 (<CJK Ideograph>)
16551	0x78E5	磥 (<CJK Ideograph>)
16552	0x78EA	磪 (<CJK Ideograph>)
16553	0x78DE	磞 (<CJK Ideograph>)
16554	0x78E3	磣 (<CJK Ideograph>)
16555	0x78DB	磛 (<CJK Ideograph>)
16556	0x78E1	磡 (<CJK Ideograph>)
16557	0x78E2	磢 (<CJK Ideograph>)
16558	0x78ED	磭 (<CJK Ideograph>)
16559	0x78DF	磟 (<CJK Ideograph>)
16560	0x78E0	磠 (<CJK Ideograph>)
16561	0x79A4	禤 (<CJK Ideograph>)
16562	0x7A44	穄 (<CJK Ideograph>)
16563	0x7A48	穈 (<CJK Ideograph>)
16564	0x7A47	穇 (<CJK Ideograph>)
16565	0x7AB6	窶 (<CJK Ideograph>)
16566	0x7AB8	窸 (<CJK Ideograph>)
16567	0x7AB5	窵 (<CJK Ideograph>)
16568	0x7AB1	窱 (<CJK Ideograph>)
16569	0x7AB7	窷 (<CJK Ideograph>)
16570	0x7BDE	篞 (<CJK Ideograph>)
16571	0x7BE3	篣 (<CJK Ideograph>)
16572	0x7BE7	篧 (<CJK Ideograph>)
16573	0x7BDD	篝 (<CJK Ideograph>)
16574	0x7BD5	篕 (<CJK Ideograph>)
16575	0x7BE5	篥 (<CJK Ideograph>)
16576	0x7BDA	篚 (<CJK Ideograph>)
16577	0x7BE8	篨 (<CJK Ideograph>)
16578	0x7BF9	篹 (<CJK Ideograph>)
16579	0x7BD4	篔 (<CJK Ideograph>)
16580	0x7BEA	篪 (<CJK Ideograph>)
16581	0x7BE2	篢 (<CJK Ideograph>)
16582	0x7BDC	篜 (<CJK Ideograph>)
16583	0x7BEB	篫 (<CJK Ideograph>)
16584	0x7BD8	篘 (<CJK Ideograph>)
16585	0x7BDF	篟 (<CJK Ideograph>)
16586	0x7CD2	糒 (<CJK Ideograph>)
16587	0x7CD4	糔 (<CJK Ideograph>)
16588	0x7CD7	糗 (<CJK Ideograph>)
16589	0x7CD0	糐 (<CJK Ideograph>)
16590	0x7CD1	糑 (<CJK Ideograph>)
16591	0x7E12	縒 (<CJK Ideograph>)
16592	0x7E21	縡 (<CJK Ideograph>)
16593	0x7E17	縗 (<CJK Ideograph>)
16594	0x7E0C	縌 (<CJK Ideograph>)
16595	0x7E1F	縟 (<CJK Ideograph>)
16596	0x7E20	縠 (<CJK Ideograph>)
16597	0x7E13	縓 (<CJK Ideograph>)
16598	0x7E0E	縎 (<CJK Ideograph>)
16599	0x7E1C	縜 (<CJK Ideograph>)
16600	0x7E15	縕 (<CJK Ideograph>)
16601	0x7E1A	縚 (<CJK Ideograph>)
16602	0x7E22	縢 (<CJK Ideograph>)
16603	0x7E0B	縋 (<CJK Ideograph>)
16604	0x7E0F	縏 (<CJK Ideograph>)
16605	0x7E16	縖 (<CJK Ideograph>)
16606	0x7E0D	縍 (<CJK Ideograph>)
16607	0x7E14	縔 (<CJK Ideograph>)
16608	0x7E25	縥 (<CJK Ideograph>)
16609	0x7E24	縤 (<CJK Ideograph>)
16610	0x7F43	罃 (<CJK Ideograph>)
16611	0x7F7B	罻 (<CJK Ideograph>)
16612	0x7F7C	罼 (<CJK Ideograph>)
16613	0x7F7A	罺 (<CJK Ideograph>)
16614	0x7FB1	羱 (<CJK Ideograph>)
16615	0x7FEF	翯 (<CJK Ideograph>)
16616	0x802A	耪 (<CJK Ideograph>)
16617	0x8029	耩 (<CJK Ideograph>)
16618	0x806C	聬 (<CJK Ideograph>)
16619	0x81B1	膱 (<CJK Ideograph>)
16620	0x81A6	膦 (<CJK Ideograph>)
16621	0x81AE	膮 (<CJK Ideograph>)
16622	0x81B9	膹 (<CJK Ideograph>)
16623	0x81B5	膵 (<CJK Ideograph>)
16624	0x81AB	膫 (<CJK Ideograph>)
16625	0x81B0	膰 (<CJK Ideograph>)
16626	0x81AC	膬 (<CJK Ideograph>)
16627	0x81B4	膴 (<CJK Ideograph>)
16628	0x81B2	膲 (<CJK Ideograph>)
16629	0x81B7	膷 (<CJK Ideograph>)
16630	0x81A7	膧 (<CJK Ideograph>)
16631	0x81F2	臲 (<CJK Ideograph>)
16632	0x8255	艕 (<CJK Ideograph>)
16633	0x8256	艖 (<CJK Ideograph>)
16634	0x8257	艗 (<CJK Ideograph>)
16635	0x8556	蕖 (<CJK Ideograph>)
16636	0x8545	蕅 (<CJK Ideograph>)
16637	0x856B	蕫 (<CJK Ideograph>)
16638	0x854D	蕍 (<CJK Ideograph>)
16639	0x8553	蕓 (<CJK Ideograph>)
16640	0x8561	蕡 (<CJK Ideograph>)
16641	0x8558	蕘 (<CJK Ideograph>)
"#

/-- encoding_tables/whatwg/index-big5.txt:15457-15613 -/
noncomputable def index106 : List Text := lines! r#"16642	0x8540	蕀 (<CJK Ideograph>)
16643	0x8546	蕆 (<CJK Ideograph>)
16644	0x8564	蕤 (<CJK Ideograph>)
16645	0x8541	蕁 (<CJK Ideograph>)
16646	0x8562	蕢 (<CJK Ideograph>)
16647	0x8544	蕄 (<CJK Ideograph>)
16648	0x8551	蕑 (<CJK Ideograph>)
16649	0x8547	蕇 (<CJK Ideograph>)
16650	0x8563	蕣 (<CJK Ideograph>)
16651	0x853E	蔾 (<CJK Ideograph>)
16652	0x855B	蕛 (<CJK Ideograph>)
16653	0x8571	蕱 (<CJK Ideograph>)
16654	0x854E	蕎 (<CJK Ideograph>)
16655	0x856E	蕮 (<CJK Ideograph>)
16656	0x8575	蕵 (<CJK Ideograph>)
16657	0x8555	蕕 (<CJK Ideograph>)
16658	0x8567	蕧 (<CJK Ideograph>)
16659	0x8560	蕠 (<CJK Ideograph>)
16660	0x858C	薌 (<CJK Ideograph>)
16661	0x8566	蕦 (<CJK Ideograph>)
16662	0x855D	蕝 (<CJK Ideograph>)
16663	0x8554	蕔 (<CJK Ideograph>)
16664	0x8565	蕥 (<CJK Ideograph>)
16665	0x856C	蕬 (<CJK Ideograph>)
16666	0x8663	虣 (<CJK Ideograph>)
16667	0x8665	虥 (<CJK Ideograph>)
16668	0x8664	虤 (<CJK Ideograph>)
16669	0x879B	螛 (<CJK Ideograph>)
16670	0x878F	螏 (<CJK Ideograph>)
16671	0x8797	螗 (<CJK Ideograph>)
16672	0x8793	螓 (<CJK Ideograph>)
16673	0x8792	螒 (<CJK Ideograph>)
16674	0x8788	螈 (<CJK Ideograph>)
16675	0x8781	螁 (<CJK Ideograph>)
16676	0x8796	螖 (<CJK Ideograph>)
16677	0x8798	螘 (<CJK Ideograph>)
16678	0x8779	蝹 (<CJK Ideograph>)
16679	0x8787	螇 (<CJK Ideograph>)
16680	0x87A3	螣 (<CJK Ideograph>)
16681	0x8785	螅 (<CJK Ideograph>)
16682	0x8790	螐 (<CJK Ideograph>)
16683	0x8791	螑 (<CJK Ideograph>)
16684	0x879D	螝 (<CJK Ideograph>)
16685	0x8784	螄 (<CJK Ideograph>)
16686	0x8794	螔 (<CJK Ideograph>)
16687	0x879C	螜 (<CJK Ideograph>)
16688	0x879A	螚 (<CJK Ideograph>)
16689	0x8789	螉 (<CJK Ideograph>)
16690	0x891E	褞 (<CJK Ideograph>)
16691	0x8926	褦 (<CJK Ideograph>)
16692	0x8930	褰 (<CJK Ideograph>)
16693	0x892D	褭 (<CJK Ideograph>)
16694	0x892E	褮 (<CJK Ideograph>)
16695	0x8927	褧 (<CJK Ideograph>)
16696	0x8931	褱 (<CJK Ideograph>)
16697	0x8922	褢 (<CJK Ideograph>)
16698	0x8929	褩 (<CJK Ideograph>)
16699	0x8923	褣 (<CJK Ideograph>)
16700	0x892F	褯 (<CJK Ideograph>)
16701	0x892C	褬 (<CJK Ideograph>)
16702	0x891F	褟 (<CJK Ideograph>)
16703	0x89F1	觱 (<CJK Ideograph>)
16704	0x8AE0	諠 (<CJK Ideograph>)
16705	0x8AE2	諢 (<CJK Ideograph>)
16706	0x8AF2	諲 (<CJK Ideograph>)
16707	0x8AF4	諴 (<CJK Ideograph>)
16708	0x8AF5	諵 (<CJK Ideograph>)
16709	0x8ADD	諝 (<CJK Ideograph>)
16710	0x8B14	謔 (<CJK Ideograph>)
16711	0x8AE4	諤 (<CJK Ideograph>)
16712	0x8ADF	諟 (<CJK Ideograph>)
16713	0x8AF0	諰 (<CJK Ideograph>)
16714	0x8AC8	諈 (<CJK Ideograph>)
16715	0x8ADE	諞 (<CJK Ideograph>)
16716	0x8AE1	諡 (<CJK Ideograph>)
16717	0x8AE8	諨 (<CJK Ideograph>)
16718	0x8AFF	諿 (<CJK Ideograph>)
16719	0x8AEF	諯 (<CJK Ideograph>)
16720	0x8AFB	諻 (<CJK Ideograph>)
16721	0x8C91	貑 (<CJK Ideograph>)
16722	0x8C92	貒 (<CJK Ideograph>)
16723	0x8C90	貐 (<CJK Ideograph>)
16724	0x8CF5	賵 (<CJK Ideograph>)
16725	0x8CEE	賮 (<CJK Ideograph>)
16726	0x8CF1	賱 (<CJK Ideograph>)
16727	0x8CF0	賰 (<CJK Ideograph>)
16728	0x8CF3	賳 (<CJK Ideograph>)
16729	0x8D6C	赬 (<CJK Ideograph>)
16730	0x8D6E	赮 (<CJK Ideograph>)
16731	0x8DA5	趥 (<CJK Ideograph>)
16732	0x8DA7	趧 (<CJK Ideograph>)
16733	0x8E33	踳 (<CJK Ideograph>)
16734	0x8E3E	踾 (<CJK Ideograph>)
16735	0x8E38	踸 (<CJK Ideograph>)
16736	0x8E40	蹀 (<CJK Ideograph>)
16737	0x8E45	蹅 (<CJK Ideograph>)
16738	0x8E36	踶 (<CJK Ideograph>)
16739	0x8E3C	踼 (<CJK Ideograph>)
16740	0x8E3D	踽 (<CJK Ideograph>)
16741	0x8E41	蹁 (<CJK Ideograph>)
16742	0x8E30	踰 (<CJK Ideograph>)
16743	0x8E3F	踿 (<CJK Ideograph>)
16744	0x8EBD	躽 (<CJK Ideograph>)
16745	0x8F36	輶 (<CJK Ideograph>)
16746	0x8F2E	輮 (<CJK Ideograph>)
16747	0x8F35	輵 (<CJK Ideograph>)
16748	0x8F32	輲 (<CJK Ideograph>)
16749	0x8F39	輹 (<CJK Ideograph>)
16750	0x8F37	輷 (<CJK Ideograph>)
16751	0x8F34	輴 (<CJK Ideograph>)
16752	0x9076	遶 (<CJK Ideograph>)
16753	0x9079	遹 (<CJK Ideograph>)
16754	0x907B	遻 (<CJK Ideograph>)
16755	0x9086	邆 (<CJK Ideograph>)
16756	0x90FA	郺 (<CJK Ideograph>)
16757	0x9133	鄳 (<CJK Ideograph>)
16758	0x9135	鄵 (<CJK Ideograph>)
16759	0x9136	鄶 (<CJK Ideograph>)
16760	0x9193	醓 (<CJK Ideograph>)
16761	0x9190	醐 (<CJK Ideograph>)
16762	0x9191	醑 (<CJK Ideograph>)
16763	0x918D	醍 (<CJK Ideograph>)
16764	0x918F	醏 (<CJK Ideograph>)
16765	0x9327	錧 (<CJK Ideograph>)
16766	0x931E	錞 (<CJK Ideograph>)
16767	0x9308	錈 (<CJK Ideograph>)
16768	0x931F	錟 (<CJK Ideograph>)
16769	0x9306	錆 (<CJK Ideograph>)
16770	0x930F	錏 (<CJK Ideograph>)
16771	0x937A	鍺 (<CJK Ideograph>)
16772	0x9338	錸 (<CJK Ideograph>)
16773	0x933C	錼 (<CJK Ideograph>)
16774	0x931B	錛 (<CJK Ideograph>)
16775	0x9323	錣 (<CJK Ideograph>)
16776	0x9312	錒 (<CJK Ideograph>)
16777	0x9301	錁 (<CJK Ideograph>)
16778	0x9346	鍆 (<CJK Ideograph>)
16779	0x932D	錭 (<CJK Ideograph>)
16780	0x930E	錎 (<CJK Ideograph>)
16781	0x930D	錍 (<CJK Ideograph>)
16782	0x92CB	鋋 (<CJK Ideograph>)
16783	0x931D	錝 (<CJK Ideograph>)
16784	0x92FA	鋺 (<CJK Ideograph>)
16785	0x9325	錥 (<CJK Ideograph>)
16786	0x9313	錓 (<CJK Ideograph>)
16787	0x92F9	鋹 (<CJK Ideograph>)
16788	0x92F7	鋷 (<CJK Ideograph>)
16789	0x9334	錴 (<CJK Ideograph>)
16790	0x9302	錂 (<CJK Ideograph>)
16791	0x9324	錤 (<CJK Ideograph>)
16792	0x92FF	鋿 (<CJK Ideograph>)
16793	0x9329	錩 (<CJK Ideograph>)
16794	0x9339	錹 (<CJK Ideograph>)
16795	0x9335	錵 (<CJK Ideograph>)
16796	0x932A	錪 (<CJK Ideograph>)
16797	0x9314	錔 (<CJK Ideograph>)
16798	0x930C	錌 (<CJK Ideograph>)
"#

/-- encoding_tables/whatwg/index-big5.txt:15614-15770 -/
noncomputable def index107 : List Text := lines! r#"16799	0x930B	錋 (<CJK Ideograph>)
16800	0x92FE	鋾 (<CJK Ideograph>)
16801	0x9309	錉 (<CJK Ideograph>)
16802	0x9300	錀 (<CJK Ideograph>)
16803	0x92FB	鋻 (<CJK Ideograph>)
16804	0x9316	錖 (<CJK Ideograph>)
16805	0x95BC	閼 (<CJK Ideograph>)
16806	0x95CD	闍 (<CJK Ideograph>)
16807	0x95BE	閾 (<CJK Ideograph>)
16808	0x95B9	閹 (<CJK Ideograph>)
16809	0x95BA	閺 (<CJK Ideograph>)
16810	0x95B6	閶 (<CJK Ideograph>)
16811	0x95BF	閿 (<CJK Ideograph>)
16812	0x95B5	閵 (<CJK Ideograph>)
16813	0x95BD	閽 (<CJK Ideograph>)
16814	0x96A9	隩 (<CJK Ideograph>)
16815	0x96D4	雔 (<CJK Ideograph>)
16816	0x970B	霋 (<CJK Ideograph>)
16817	0x9712	霒 (<CJK Ideograph>)
16818	0x9710	霐 (<CJK Ideograph>)
16819	0x9799	鞙 (<CJK Ideograph>)
16820	0x9797	鞗 (<CJK Ideograph>)
16821	0x9794	鞔 (<CJK Ideograph>)
16822	0x97F0	韰 (<CJK Ideograph>)
16823	0x97F8	韸 (<CJK Ideograph>)
16824	0x9835	頵 (<CJK Ideograph>)
16825	0x982F	頯 (<CJK Ideograph>)
16826	0x9832	頲 (<CJK Ideograph>)
16827	0x9924	餤 (<CJK Ideograph>)
16828	0x991F	餟 (<CJK Ideograph>)
16829	0x9927	餧 (<CJK Ideograph>)
16830	0x9929	餩 (<CJK Ideograph>)
16831	0x999E	馞 (<CJK Ideograph>)
16832	0x99EE	駮 (<CJK Ideograph>)
16833	0x99EC	駬 (<CJK Ideograph>)
16834	0x99E5	駥 (<CJK Ideograph>)
16835	0x99E4	駤 (<CJK Ideograph>)
16836	0x99F0	駰 (<CJK Ideograph>)
16837	0x99E3	駣 (<CJK Ideograph>)
16838	0x99EA	駪 (<CJK Ideograph>)
16839	0x99E9	駩 (<CJK Ideograph>)
16840	0x99E7	駧 (<CJK Ideograph>)
16841	0x9AB9	骹 (<CJK Ideograph>)
16842	0x9ABF	骿 (<CJK Ideograph>)
16843	0x9AB4	骴 (<CJK Ideograph>)
16844	0x9ABB	骻 (<CJK Ideograph>)
16845	0x9AF6	髶 (<CJK Ideograph>)
16846	0x9AFA	髺 (<CJK Ideograph>)
16847	0x9AF9	髹 (<CJK Ideograph>)
16848	0x9AF7	髷 (<CJK Ideograph>)
16849	0x9B33	鬳 (<CJK Ideograph>)
16850	0x9B80	鮀 (<CJK Ideograph>)
16851	0x9B85	鮅 (<CJK Ideograph>)
16852	0x9B87	鮇 (<CJK Ideograph>)
16853	0x9B7C	魼 (<CJK Ideograph>)
16854	0x9B7E	魾 (<CJK Ideograph>)
16855	0x9B7B	魻 (<CJK Ideograph>)
16856	0x9B82	鮂 (<CJK Ideograph>)
16857	0x9B93	鮓 (<CJK Ideograph>)
16858	0x9B92	鮒 (<CJK Ideograph>)
16859	0x9B90	鮐 (<CJK Ideograph>)
16860	0x9B7A	魺 (<CJK Ideograph>)
16861	0x9B95	鮕 (<CJK Ideograph>)
16862	0x9B7D	魽 (<CJK Ideograph>)
16863	0x9B88	鮈 (<CJK Ideograph>)
16864	0x9D25	鴥 (<CJK Ideograph>)
16865	0x9D17	鴗 (<CJK Ideograph>)
16866	0x9D20	鴠 (<CJK Ideograph>)
16867	0x9D1E	鴞 (<CJK Ideograph>)
16868	0x9D14	鴔 (<CJK Ideograph>)
16869	0x9D29	鴩 (<CJK Ideograph>)
16870	0x9D1D	鴝 (<CJK Ideograph>)
16871	0x9D18	鴘 (<CJK Ideograph>)
16872	0x9D22	鴢 (<CJK Ideograph>)
16873	0x9D10	鴐 (<CJK Ideograph>)
16874	0x9D19	鴙 (<CJK Ideograph>)
16875	0x9D1F	鴟 (<CJK Ideograph>)
16876	0x9E88	麈 (<CJK Ideograph>)
16877	0x9E86	麆 (<CJK Ideograph>)
16878	0x9E87	麇 (<CJK Ideograph>)
16879	0x9EAE	麮 (<CJK Ideograph>)
16880	0x9EAD	麭 (<CJK Ideograph>)
16881	0x9ED5	黕 (<CJK Ideograph>)
16882	0x9ED6	黖 (<CJK Ideograph>)
16883	0x9EFA	黺 (<CJK Ideograph>)
16884	0x9F12	鼒 (<CJK Ideograph>)
16885	0x9F3D	鼽 (<CJK Ideograph>)
16886	0x5126	儦 (<CJK Ideograph>)
16887	0x5125	儥 (<CJK Ideograph>)
16888	0x5122	儢 (<CJK Ideograph>)
16889	0x5124	儤 (<CJK Ideograph>)
16890	0x5120	儠 (<CJK Ideograph>)
16891	0x5129	儩 (<CJK Ideograph>)
16892	0x52F4	勴 (<CJK Ideograph>)
16893	0x5693	嚓 (<CJK Ideograph>)
16894	0x568C	嚌 (<CJK Ideograph>)
16895	0x568D	嚍 (<CJK Ideograph>)
16896	0x5686	嚆 (<CJK Ideograph>)
16897	0x5684	嚄 (<CJK Ideograph>)
16898	0x5683	嚃 (<CJK Ideograph>)
16899	0x567E	噾 (<CJK Ideograph>)
16900	0x5682	嚂 (<CJK Ideograph>)
16901	0x567F	噿 (<CJK Ideograph>)
16902	0x5681	嚁 (<CJK Ideograph>)
16903	0x58D6	壖 (<CJK Ideograph>)
16904	0x58D4	壔 (<CJK Ideograph>)
16905	0x58CF	壏 (<CJK Ideograph>)
16906	0x58D2	壒 (<CJK Ideograph>)
16907	0x5B2D	嬭 (<CJK Ideograph>)
16908	0x5B25	嬥 (<CJK Ideograph>)
16909	0x5B32	嬲 (<CJK Ideograph>)
16910	0x5B23	嬣 (<CJK Ideograph>)
16911	0x5B2C	嬬 (<CJK Ideograph>)
16912	0x5B27	嬧 (<CJK Ideograph>)
16913	0x5B26	嬦 (<CJK Ideograph>)
16914	0x5B2F	嬯 (<CJK Ideograph>)
16915	0x5B2E	嬮 (<CJK Ideograph>)
16916	0x5B7B	孻 (<CJK Ideograph>)
16917	0x5BF1	寱 (<CJK Ideograph>)
16918	0x5BF2	寲 (<CJK Ideograph>)
16919	0x5DB7	嶷 (<CJK Ideograph>)
16920	0x5E6C	幬 (<CJK Ideograph>)
16921	0x5E6A	幪 (<CJK Ideograph>)
16922	0x5FBE	徾 (<CJK Ideograph>)
16923	0x5FBB	徻 (<CJK Ideograph>)
16924	0x61C3	懃 (<CJK Ideograph>)
16925	0x61B5	憵 (<CJK Ideograph>)
16926	0x61BC	憼 (<CJK Ideograph>)
16927	0x61E7	懧 (<CJK Ideograph>)
16928	0x61E0	懠 (<CJK Ideograph>)
16929	0x61E5	懥 (<CJK Ideograph>)
16930	0x61E4	懤 (<CJK Ideograph>)
16931	0x61E8	懨 (<CJK Ideograph>)
16932	0x61DE	懞 (<CJK Ideograph>)
16933	0x64EF	擯 (<CJK Ideograph>)
16934	0x64E9	擩 (<CJK Ideograph>)
16935	0x64E3	擣 (<CJK Ideograph>)
16936	0x64EB	擫 (<CJK Ideograph>)
16937	0x64E4	擤 (<CJK Ideograph>)
16938	0x64E8	擨 (<CJK Ideograph>)
16939	0x6581	斁 (<CJK Ideograph>)
16940	0x6580	斀 (<CJK Ideograph>)
16941	0x65B6	斶 (<CJK Ideograph>)
16942	0x65DA	旚 (<CJK Ideograph>)
16943	0x66D2	曒 (<CJK Ideograph>)
16944	0x6A8D	檍 (<CJK Ideograph>)
16945	0x6A96	檖 (<CJK Ideograph>)
16946	0x6A81	檁 (<CJK Ideograph>)
16947	0x6AA5	檥 (<CJK Ideograph>)
16948	0x6A89	檉 (<CJK Ideograph>)
16949	0x6A9F	檟 (<CJK Ideograph>)
16950	0x6A9B	檛 (<CJK Ideograph>)
16951	0x6AA1	檡 (<CJK Ideograph>)
16952	0x6A9E	檞 (<CJK Ideograph>)
16953	0x6A87	檇 (<CJK Ideograph>)
16954	0x6A93	檓 (<CJK Ideograph>)
16955	0x6A8E	檎 (<CJK Ideograph>)
"#

/-- encoding_tables/whatwg/index-big5.txt:15771-15927 -/
noncomputable def index108 : List Text := lines! r#"16956	0x6A95	檕 (<CJK Ideograph>)
16957	0x6A83	檃 (<CJK Ideograph>)
16958	0x6AA8	檨 (<CJK Ideograph>)
16959	0x6AA4	檤 (<CJK Ideograph>)
16960	0x6A91	檑 (<CJK Ideograph>)
16961	0x6A7F	橿 (<CJK Ideograph>)
16962	0x6AA6	檦 (<CJK Ideograph>)
16963	0x6A9A	檚 (<CJK Ideograph>)
16964	0x6A85	檅 (<CJK Ideograph>)
16965	0x6A8C	檌 (<CJK Ideograph>)
16966	0x6A92	檒 (<CJK Ideograph>)
16967	0x6B5B	歛 (<CJK Ideograph>)
16968	0x6BAD	殭 (<CJK Ideograph>)
16969	0x6C09	氉 (<CJK Ideograph>)
16970	0x6FCC	濌 (<CJK Ideograph>)
16971	0x6FA9	澩 (<CJK Ideograph>)
16972	0x6FF4	濴 (<CJK Ideograph>)
16973	0x6FD4	濔 (<CJK Ideograph>)
16974	0x6FE3	濣 (<CJK Ideograph>)
16975	0x6FDC	濜 (<CJK Ideograph>)
16976	0x6FED	濭 (<CJK Ideograph>)
16977	0x6FE7	濧 (<CJK Ideograph>)
16978	0x6FE6	濦 (<CJK Ideograph>)
16979	0x6FDE	濞 (<CJK Ideograph>)
16980	0x6FF2	濲 (<CJK Ideograph>)
16981	0x6FDD	濝 (<CJK Ideograph>)
16982	0x6FE2	濢 (<CJK Ideograph>)
16983	0x6FE8	濨 (<CJK Ideograph>)
16984	0x71E1	燡 (<CJK Ideograph>)
16985	0x71F1	燱 (<CJK Ideograph>)
16986	0x71E8	燨 (<CJK Ideograph>)
16987	0x71F2	燲 (<CJK Ideograph>)
16988	0x71E4	燤 (<CJK Ideograph>)
16989	0x71F0	燰 (<CJK Ideograph>)
16990	0x71E2	燢 (<CJK Ideograph>)
16991	0x7373	獳 (<CJK Ideograph>)
16992	0x736E	獮 (<CJK Ideograph>)
16993	0x736F	獯 (<CJK Ideograph>)
16994	0x7497	璗 (<CJK Ideograph>)
16995	0x74B2	璲 (<CJK Ideograph>)
16996	0x74AB	璫 (<CJK Ideograph>)
16997	0x7490	璐 (<CJK Ideograph>)
16998	0x74AA	璪 (<CJK Ideograph>)
16999	0x74AD	璭 (<CJK Ideograph>)
17000	0x74B1	璱 (<CJK Ideograph>)
17001	0x74A5	璥 (<CJK Ideograph>)
17002	0x74AF	璯 (<CJK Ideograph>)
17003	0x7510	甐 (<CJK Ideograph>)
17004	0x7511	甑 (<CJK Ideograph>)
17005	0x7512	甒 (<CJK Ideograph>)
17006	0x750F	甏 (<CJK Ideograph>)
17007	0x7584	疄 (<CJK Ideograph>)
17008	0x7643	癃 (<CJK Ideograph>)
17009	0x7648	癈 (<CJK Ideograph>)
17010	0x7649	癉 (<CJK Ideograph>)
17011	0x7647	癇 (<CJK Ideograph>)
17012	0x76A4	皤 (<CJK Ideograph>)
17013	0x76E9	盩 (<CJK Ideograph>)
17014	0x77B5	瞵 (<CJK Ideograph>)
17015	0x77AB	瞫 (<CJK Ideograph>)
17016	0x77B2	瞲 (<CJK Ideograph>)
17017	0x77B7	瞷 (<CJK Ideograph>)
17018	0x77B6	瞶 (<CJK Ideograph>)
17019	0x77B4	瞴 (<CJK Ideograph>)
17020	0x77B1	瞱 (<CJK Ideograph>)
17021	0x77A8	瞨 (<CJK Ideograph>)
17022	0x77F0	矰 (<CJK Ideograph>)
17023	0x78F3	磳 (<CJK Ideograph>)
17024	0x78FD	磽 (<CJK Ideograph>)
17025	0x7902	礂 (<CJK Ideograph>)
17026	0x78FB	磻 (<CJK Ideograph>)
17027	0x78FC	磼 (<CJK Ideograph>)
17028	0x78F2	磲 (<CJK Ideograph>)
17029	0x7905	礅 (<CJK Ideograph>)
17030	0x78F9	磹 (<CJK Ideograph>)
17031	0x78FE	磾 (<CJK Ideograph>)
17032	0x7904	礄 (<CJK Ideograph>)
17033	0x79AB	禫 (<CJK Ideograph>)
17034	0x79A8	禨 (<CJK Ideograph>)
17035	0x7A5C	穜 (<CJK Ideograph>)
17036	0x7A5B	穛 (<CJK Ideograph>)
17037	0x7A56	穖 (<CJK Ideograph>)
17038	0x7A58	穘 (<CJK Ideograph>)
17039	0x7A54	穔 (<CJK Ideograph>)
17040	0x7A5A	穚 (<CJK Ideograph>)
17041	0x7ABE	窾 (<CJK Ideograph>)
17042	0x7AC0	竀 (<CJK Ideograph>)
17043	0x7AC1	竁 (<CJK Ideograph>)
17044	0x7C05	簅 (<CJK Ideograph>)
17045	0x7C0F	簏 (<CJK Ideograph>)
17046	0x7BF2	篲 (<CJK Ideograph>)
17047	0x7C00	簀 (<CJK Ideograph>)
17048	0x7BFF	篿 (<CJK Ideograph>)
17049	0x7BFB	篻 (<CJK Ideograph>)
17050	0x7C0E	簎 (<CJK Ideograph>)
17051	0x7BF4	篴 (<CJK Ideograph>)
17052	0x7C0B	簋 (<CJK Ideograph>)
17053	0x7BF3	篳 (<CJK Ideograph>)
17054	0x7C02	簂 (<CJK Ideograph>)
17055	0x7C09	簉 (<CJK Ideograph>)
17056	0x7C03	簃 (<CJK Ideograph>)
17057	0x7C01	簁 (<CJK Ideograph>)
17058	0x7BF8	篸 (<CJK Ideograph>)
17059	0x7BFD	篽 (<CJK Ideograph>)
17060	0x7C06	簆 (<CJK Ideograph>)
17061	0x7BF0	篰 (<CJK Ideograph>)
17062	0x7BF1	篱 (<CJK Ideograph>)
17063	0x7C10	簐 (<CJK Ideograph>)
17064	0x7C0A	簊 (<CJK Ideograph>)
17065	0x7CE8	糨 (<CJK Ideograph>)
17066	0x7E2D	縭 (<CJK Ideograph>)
17067	0x7E3C	縼 (<CJK Ideograph>)
17068	0x7E42	繂 (<CJK Ideograph>)
17069	0x7E33	縳 (<CJK Ideograph>)
17070	0x9848	顈 (<CJK Ideograph>)
17071	0x7E38	縸 (<CJK Ideograph>)
17072	0x7E2A	縪 (<CJK Ideograph>)
17073	0x7E49	繉 (<CJK Ideograph>)
17074	0x7E40	繀 (<CJK Ideograph>)
17075	0x7E47	繇 (<CJK Ideograph>)
17076	0x7E29	縩 (<CJK Ideograph>)
17077	0x7E4C	繌 (<CJK Ideograph>)
17078	0x7E30	縰 (<CJK Ideograph>)
17079	0x7E3B	縻 (<CJK Ideograph>)
17080	0x7E36	縶 (<CJK Ideograph>)
17081	0x7E44	繄 (<CJK Ideograph>)
17082	0x7E3A	縺 (<CJK Ideograph>)
17083	0x7F45	罅 (<CJK Ideograph>)
17084	0x7F7F	罿 (<CJK Ideograph>)
17085	0x7F7E	罾 (<CJK Ideograph>)
17086	0x7F7D	罽 (<CJK Ideograph>)
17087	0x7FF4	翴 (<CJK Ideograph>)
17088	0x7FF2	翲 (<CJK Ideograph>)
17089	0x802C	耬 (<CJK Ideograph>)
17090	0x81BB	膻 (<CJK Ideograph>)
17091	0x81C4	臄 (<CJK Ideograph>)
17092	0x81CC	臌 (<CJK Ideograph>)
17093	0x81CA	臊 (<CJK Ideograph>)
17094	0x81C5	臅 (<CJK Ideograph>)
17095	0x81C7	臇 (<CJK Ideograph>)
17096	0x81BC	膼 (<CJK Ideograph>)
17097	0x81E9	臩 (<CJK Ideograph>)
17098	0x825B	艛 (<CJK Ideograph>)
17099	0x825A	艚 (<CJK Ideograph>)
17100	0x825C	艜 (<CJK Ideograph>)
17101	0x8583	薃 (<CJK Ideograph>)
17102	0x8580	薀 (<CJK Ideograph>)
17103	0x858F	薏 (<CJK Ideograph>)
17104	0x85A7	薧 (<CJK Ideograph>)
17105	0x8595	薕 (<CJK Ideograph>)
17106	0x85A0	薠 (<CJK Ideograph>)
17107	0x858B	薋 (<CJK Ideograph>)
17108	0x85A3	薣 (<CJK Ideograph>)
17109	0x857B	蕻 (<CJK Ideograph>)
17110	0x85A4	薤 (<CJK Ideograph>)
17111	0x859A	薚 (<CJK Ideograph>)
17112	0x859E	薞 (<CJK Ideograph>)
"#

/-- encoding_tables/whatwg/index-big5.txt:15928-16084 -/
noncomputable def index109 : List Text := lines! r#"17113	0x8577	蕷 (<CJK Ideograph>)
17114	0x857C	蕼 (<CJK Ideograph>)
17115	0x8589	薉 (<CJK Ideograph>)
17116	0x85A1	薡 (<CJK Ideograph>)
17117	0x857A	蕺 (<CJK Ideograph>)
17118	0x8578	蕸 (<CJK Ideograph>)
17119	0x8557	蕗 (<CJK Ideograph>)
17120	0x858E	薎 (<CJK Ideograph>)
17121	0x8596	薖 (<CJK Ideograph>)
17122	0x8586	薆 (<CJK Ideograph>)
17123	0x858D	薍 (<CJK Ideograph>)
17124	0x8599	薙 (<CJK Ideograph>)
17125	0x859D	薝 (<CJK Ideograph>)
17126	0x8581	薁 (<CJK Ideograph>)
17127	0x85A2	薢 (<CJK Ideograph>)
17128	0x8582	薂 (<CJK Ideograph>)
17129	0x8588	薈 (<CJK Ideograph>)
17130	0x8585	薅 (<CJK Ideograph>)
17131	0x8579	蕹 (<CJK Ideograph>)
17132	0x8576	蕶 (<CJK Ideograph>)
17133	0x8598	薘 (<CJK Ideograph>)
17134	0x8590	薐 (<CJK Ideograph>)
17135	0x859F	薟 (<CJK Ideograph>)
17136	0x8668	虨 (<CJK Ideograph>)
17137	0x87BE	螾 (<CJK Ideograph>)
17138	0x87AA	螪 (<CJK Ideograph>)
17139	0x87AD	螭 (<CJK Ideograph>)
17140	0x87C5	蟅 (<CJK Ideograph>)
17141	0x87B0	螰 (<CJK Ideograph>)
17142	0x87AC	螬 (<CJK Ideograph>)
17143	0x87B9	螹 (<CJK Ideograph>)
17144	0x87B5	螵 (<CJK Ideograph>)
17145	0x87BC	螼 (<CJK Ideograph>)
17146	0x87AE	螮 (<CJK Ideograph>)
17147	0x87C9	蟉 (<CJK Ideograph>)
17148	0x87C3	蟃 (<CJK Ideograph>)
17149	0x87C2	蟂 (<CJK Ideograph>)
17150	0x87CC	蟌 (<CJK Ideograph>)
17151	0x87B7	螷 (<CJK Ideograph>)
17152	0x87AF	螯 (<CJK Ideograph>)
17153	0x87C4	蟄 (<CJK Ideograph>)
17154	0x87CA	蟊 (<CJK Ideograph>)
17155	0x87B4	螴 (<CJK Ideograph>)
17156	0x87B6	螶 (<CJK Ideograph>)
17157	0x87BF	螿 (<CJK Ideograph>)
17158	0x87B8	螸 (<CJK Ideograph>)
17159	0x87BD	螽 (<CJK Ideograph>)
17160	0x87DE	蟞 (<CJK Ideograph>)
17161	0x87B2	螲 (<CJK Ideograph>)
17162	0x8935	褵 (<CJK Ideograph>)
17163	0x8933	褳 (<CJK Ideograph>)
17164	0x893C	褼 (<CJK Ideograph>)
17165	0x893E	褾 (<CJK Ideograph>)
17166	0x8941	襁 (<CJK Ideograph>)
17167	0x8952	襒 (<CJK Ideograph>)
17168	0x8937	褷 (<CJK Ideograph>)
17169	0x8942	襂 (<CJK Ideograph>)
17170	0x89AD	覭 (<CJK Ideograph>)
17171	0x89AF	覯 (<CJK Ideograph>)
17172	0x89AE	覮 (<CJK Ideograph>)
17173	0x89F2	觲 (<CJK Ideograph>)
17174	0x89F3	觳 (<CJK Ideograph>)
17175	0x8B1E	謞 (<CJK Ideograph>)
17176	0x8B18	謘 (<CJK Ideograph>)
17177	0x8B16	謖 (<CJK Ideograph>)
17178	0x8B11	謑 (<CJK Ideograph>)
17179	0x8B05	謅 (<CJK Ideograph>)
17180	0x8B0B	謋 (<CJK Ideograph>)
17181	0x8B22	謢 (<CJK Ideograph>)
17182	0x8B0F	謏 (<CJK Ideograph>)
17183	0x8B12	謒 (<CJK Ideograph>)
17184	0x8B15	謕 (<CJK Ideograph>)
17185	0x8B07	謇 (<CJK Ideograph>)
17186	0x8B0D	謍 (<CJK Ideograph>)
17187	0x8B08	謈 (<CJK Ideograph>)
17188	0x8B06	謆 (<CJK Ideograph>)
17189	0x8B1C	謜 (<CJK Ideograph>)
17190	0x8B13	謓 (<CJK Ideograph>)
17191	0x8B1A	謚 (<CJK Ideograph>)
17192	0x8C4F	豏 (<CJK Ideograph>)
17193	0x8C70	豰 (<CJK Ideograph>)
17194	0x8C72	豲 (<CJK Ideograph>)
17195	0x8C71	豱 (<CJK Ideograph>)
17196	0x8C6F	豯 (<CJK Ideograph>)
17197	0x8C95	貕 (<CJK Ideograph>)
17198	0x8C94	貔 (<CJK Ideograph>)
17199	0x8CF9	賹 (<CJK Ideograph>)
17200	0x8D6F	赯 (<CJK Ideograph>)
17201	0x8E4E	蹎 (<CJK Ideograph>)
17202	0x8E4D	蹍 (<CJK Ideograph>)
17203	0x8E53	蹓 (<CJK Ideograph>)
17204	0x8E50	蹐 (<CJK Ideograph>)
17205	0x8E4C	蹌 (<CJK Ideograph>)
17206	0x8E47	蹇 (<CJK Ideograph>)
17207	0x8F43	轃 (<CJK Ideograph>)
17208	0x8F40	轀 (<CJK Ideograph>)
17209	0x9085	邅 (<CJK Ideograph>)
17210	0x907E	遾 (<CJK Ideograph>)
17211	0x9138	鄸 (<CJK Ideograph>)
17212	0x919A	醚 (<CJK Ideograph>)
17213	0x91A2	醢 (<CJK Ideograph>)
17214	0x919B	醛 (<CJK Ideograph>)
17215	0x9199	醙 (<CJK Ideograph>)
17216	0x919F	醟 (<CJK Ideograph>)
17217	0x91A1	醡 (<CJK Ideograph>)
17218	0x919D	醝 (<CJK Ideograph>)
17219	0x91A0	醠 (<CJK Ideograph>)
17220	0x93A1	鎡 (<CJK Ideograph>)
17221	0x9383	鎃 (<CJK Ideograph>)
17222	0x93AF	鎯 (<CJK Ideograph>)
17223	0x9364	鍤 (<CJK Ideograph>)
17224	0x9356	鍖 (<CJK Ideograph>)
17225	0x9347	鍇 (<CJK Ideograph>)
17226	0x937C	鍼 (<CJK Ideograph>)
17227	0x9358	鍘 (<CJK Ideograph>)
17228	0x935C	鍜 (<CJK Ideograph>)
17229	0x9376	鍶 (<CJK Ideograph>)
17230	0x9349	鍉 (<CJK Ideograph>)
17231	0x9350	鍐 (<CJK Ideograph>)
17232	0x9351	鍑 (<CJK Ideograph>)
17233	0x9360	鍠 (<CJK Ideograph>)
17234	0x936D	鍭 (<CJK Ideograph>)
17235	0x938F	鎏 (<CJK Ideograph>)
17236	0x934C	鍌 (<CJK Ideograph>)
17237	0x936A	鍪 (<CJK Ideograph>)
17238	0x9379	鍹 (<CJK Ideograph>)
17239	0x9357	鍗 (<CJK Ideograph>)
17240	0x9355	鍕 (<CJK Ideograph>)
17241	0x9352	鍒 (<CJK Ideograph>)
17242	0x934F	鍏 (<CJK Ideograph>)
17243	0x9371	鍱 (<CJK Ideograph>)
17244	0x9377	鍷 (<CJK Ideograph>)
17245	0x937B	鍻 (<CJK Ideograph>)
17246	0x9361	鍡 (<CJK Ideograph>)
17247	0x935E	鍞 (<CJK Ideograph>)
17248	0x9363	鍣 (<CJK Ideograph>)
17249	0x9367	鍧 (<CJK Ideograph>)
17250	0x9380	鎀 (<CJK Ideograph>)
17251	0x934E	鍎 (<CJK Ideograph>)
17252	0x9359	鍙 (<CJK Ideograph>)
17253	0x95C7	闇 (<CJK Ideograph>)
17254	0x95C0	闀 (<CJK Ideograph>)
17255	0x95C9	闉 (<CJK Ideograph>)
17256	0x95C3	闃 (<CJK Ideograph>)
17257	0x95C5	闅 (<CJK Ideograph>)
17258	0x95B7	閷 (<CJK Ideograph>)
17259	0x96AE	隮 (<CJK Ideograph>)
17260	0x96B0	隰 (<CJK Ideograph>)
17261	0x96AC	隬 (<CJK Ideograph>)
17262	0x9720	霠 (<CJK Ideograph>)
17263	0x971F	霟 (<CJK Ideograph>)
17264	0x9718	霘 (<CJK Ideograph>)
17265	0x971D	霝 (<CJK Ideograph>)
17266	0x9719	霙 (<CJK Ideograph>)
17267	0x979A	鞚 (<CJK Ideograph>)
17268	0x97A1	鞡 (<CJK Ideograph>)
17269	0x979C	鞜 (<CJK Ideograph>)
"#

/-- encoding_tables/whatwg/index-big5.txt:16085-16241 -/
noncomputable def index110 : List Text := lines! r#"17270	0x979E	鞞 (<CJK Ideograph>)
17271	0x979D	鞝 (<CJK Ideograph>)
17272	0x97D5	韕 (<CJK Ideograph>)
17273	0x97D4	韔 (<CJK Ideograph>)
17274	0x97F1	韱 (<CJK Ideograph>)
17275	0x9841	顁 (<CJK Ideograph>)
17276	0x9844	顄 (<CJK Ideograph>)
17277	0x984A	顊 (<CJK Ideograph>)
17278	0x9849	顉 (<CJK Ideograph>)
17279	0x9845	顅 (<CJK Ideograph>)
17280	0x9843	顃 (<CJK Ideograph>)
17281	0x9925	餥 (<CJK Ideograph>)
17282	0x992B	餫 (<CJK Ideograph>)
17283	0x992C	餬 (<CJK Ideograph>)
17284	0x992A	餪 (<CJK Ideograph>)
17285	0x9933	餳 (<CJK Ideograph>)
17286	0x9932	餲 (<CJK Ideograph>)
17287	0x992F	餯 (<CJK Ideograph>)
17288	0x992D	餭 (<CJK Ideograph>)
17289	0x9931	餱 (<CJK Ideograph>)
17290	0x9930	餰 (<CJK Ideograph>)
17291	0x9998	馘 (<CJK Ideograph>)
17292	0x99A3	馣 (<CJK Ideograph>)
17293	0x99A1	馡 (<CJK Ideograph>)
17294	0x9A02	騂 (<CJK Ideograph>)
17295	0x99FA	駺 (<CJK Ideograph>)
17296	0x99F4	駴 (<CJK Ideograph>)
17297	0x99F7	駷 (<CJK Ideograph>)
17298	0x99F9	駹 (<CJK Ideograph>)
17299	0x99F8	駸 (<CJK Ideograph>)
17300	0x99F6	駶 (<CJK Ideograph>)
17301	0x99FB	駻 (<CJK Ideograph>)
17302	0x99FD	駽 (<CJK Ideograph>)
17303	0x99FE	駾 (<CJK Ideograph>)
17304	0x99FC	駼 (<CJK Ideograph>)
17305	0x9A03	騃 (<CJK Ideograph>)
17306	0x9ABE	骾 (<CJK Ideograph>)
17307	0x9AFE	髾 (<CJK Ideograph>)
17308	0x9AFD	髽 (<CJK Ideograph>)
17309	0x9B01	鬁 (<CJK Ideograph>)
17310	0x9AFC	髼 (<CJK Ideograph>)
17311	0x9B48	魈 (<CJK Ideograph>)
17312	0x9B9A	鮚 (<CJK Ideograph>)
17313	0x9BA8	鮨 (<CJK Ideograph>)
17314	0x9B9E	鮞 (<CJK Ideograph>)
17315	0x9B9B	鮛 (<CJK Ideograph>)
17316	0x9BA6	鮦 (<CJK Ideograph>)
17317	0x9BA1	鮡 (<CJK Ideograph>)
17318	0x9BA5	鮥 (<CJK Ideograph>)
17319	0x9BA4	鮤 (<CJK Ideograph>)
17320	0x9B86	鮆 (<CJK Ideograph>)
17321	0x9BA2	鮢 (<CJK Ideograph>)
17322	0x9BA0	鮠 (<CJK Ideograph>)
17323	0x9BAF	鮯 (<CJK Ideograph>)
17324	0x9D33	鴳 (<CJK Ideograph>)
17325	0x9D41	鵁 (<CJK Ideograph>)
17326	0x9D67	鵧 (<CJK Ideograph>)
17327	0x9D36	鴶 (<CJK Ideograph>)
17328	0x9D2E	鴮 (<CJK Ideograph>)
17329	0x9D2F	鴯 (<CJK Ideograph>)
17330	0x9D31	鴱 (<CJK Ideograph>)
17331	0x9D38	鴸 (<CJK Ideograph>)
17332	0x9D30	鴰 (<CJK Ideograph>)
17333	0x9D45	鵅 (<CJK Ideograph>)
17334	0x9D42	鵂 (<CJK Ideograph>)
17335	0x9D43	鵃 (<CJK Ideograph>)
17336	0x9D3E	鴾 (<CJK Ideograph>)
17337	0x9D37	鴷 (<CJK Ideograph>)
17338	0x9D40	鵀 (<CJK Ideograph>)
17339	0x9D3D	鴽 (<CJK Ideograph>)
17340	0x7FF5	翵 (<CJK Ideograph>)
17341	0x9D2D	鴭 (<CJK Ideograph>)
17342	0x9E8A	麊 (<CJK Ideograph>)
17343	0x9E89	麉 (<CJK Ideograph>)
17344	0x9E8D	麍 (<CJK Ideograph>)
17345	0x9EB0	麰 (<CJK Ideograph>)
17346	0x9EC8	黈 (<CJK Ideograph>)
17347	0x9EDA	黚 (<CJK Ideograph>)
17348	0x9EFB	黻 (<CJK Ideograph>)
17349	0x9EFF	黿 (<CJK Ideograph>)
17350	0x9F24	鼤 (<CJK Ideograph>)
17351	0x9F23	鼣 (<CJK Ideograph>)
17352	0x9F22	鼢 (<CJK Ideograph>)
17353	0x9F54	齔 (<CJK Ideograph>)
17354	0x9FA0	龠 (<CJK Ideograph>)
17355	0x5131	儱 (<CJK Ideograph>)
17356	0x512D	儭 (<CJK Ideograph>)
17357	0x512E	儮 (<CJK Ideograph>)
17358	0x5698	嚘 (<CJK Ideograph>)
17359	0x569C	嚜 (<CJK Ideograph>)
17360	0x5697	嚗 (<CJK Ideograph>)
17361	0x569A	嚚 (<CJK Ideograph>)
17362	0x569D	嚝 (<CJK Ideograph>)
17363	0x5699	嚙 (<CJK Ideograph>)
17364	0x5970	奰 (<CJK Ideograph>)
17365	0x5B3C	嬼 (<CJK Ideograph>)
17366	0x5C69	屩 (<CJK Ideograph>)
17367	0x5C6A	屪 (<CJK Ideograph>)
17368	0x5DC0	巀 (<CJK Ideograph>)
17369	0x5E6D	幭 (<CJK Ideograph>)
17370	0x5E6E	幮 (<CJK Ideograph>)
17371	0x61D8	懘 (<CJK Ideograph>)
17372	0x61DF	懟 (<CJK Ideograph>)
17373	0x61ED	懭 (<CJK Ideograph>)
17374	0x61EE	懮 (<CJK Ideograph>)
17375	0x61F1	懱 (<CJK Ideograph>)
17376	0x61EA	懪 (<CJK Ideograph>)
17377	0x61F0	懰 (<CJK Ideograph>)
17378	0x61EB	懫 (<CJK Ideograph>)
17379	0x61D6	懖 (<CJK Ideograph>)
17380	0x61E9	懩 (<CJK Ideograph>)
17381	0x64FF	擿 (<CJK Ideograph>)
17382	0x6504	攄 (<CJK Ideograph>)
17383	0x64FD	擽 (<CJK Ideograph>)
17384	0x64F8	擸 (<CJK Ideograph>)
17385	0x6501	攁 (<CJK Ideograph>)
17386	0x6503	攃 (<CJK Ideograph>)
17387	0x64FC	擼 (<CJK Ideograph>)
17388	0x6594	斔 (<CJK Ideograph>)
17389	0x65DB	旛 (<CJK Ideograph>)
17390	0x66DA	曚 (<CJK Ideograph>)
17391	0x66DB	曛 (<CJK Ideograph>)
17392	0x66D8	曘 (<CJK Ideograph>)
17393	0x6AC5	櫅 (<CJK Ideograph>)
17394	0x6AB9	檹 (<CJK Ideograph>)
17395	0x6ABD	檽 (<CJK Ideograph>)
17396	0x6AE1	櫡 (<CJK Ideograph>)
17397	0x6AC6	櫆 (<CJK Ideograph>)
17398	0x6ABA	檺 (<CJK Ideograph>)
17399	0x6AB6	檶 (<CJK Ideograph>)
17400	0x6AB7	檷 (<CJK Ideograph>)
17401	0x6AC7	櫇 (<CJK Ideograph>)
17402	0x6AB4	檴 (<CJK Ideograph>)
17403	0x6AAD	檭 (<CJK Ideograph>)
17404	0x6B5E	歞 (<CJK Ideograph>)
17405	0x6BC9	毉 (<CJK Ideograph>)
17406	0x6C0B	氋 (<CJK Ideograph>)
17407	0x7007	瀇 (<CJK Ideograph>)
17408	0x700C	瀌 (<CJK Ideograph>)
17409	0x700D	瀍 (<CJK Ideograph>)
17410	0x7001	瀁 (<CJK Ideograph>)
17411	0x7005	瀅 (<CJK Ideograph>)
17412	0x7014	瀔 (<CJK Ideograph>)
17413	0x700E	瀎 (<CJK Ideograph>)
17414	0x6FFF	濿 (<CJK Ideograph>)
17415	0x7000	瀀 (<CJK Ideograph>)
17416	0x6FFB	濻 (<CJK Ideograph>)
17417	0x7026	瀦 (<CJK Ideograph>)
17418	0x6FFC	濼 (<CJK Ideograph>)
17419	0x6FF7	濷 (<CJK Ideograph>)
17420	0x700A	瀊 (<CJK Ideograph>)
17421	0x7201	爁 (<CJK Ideograph>)
17422	0x71FF	燿 (<CJK Ideograph>)
17423	0x71F9	燹 (<CJK Ideograph>)
17424	0x7203	爃 (<CJK Ideograph>)
17425	0x71FD	燽 (<CJK Ideograph>)
17426	0x7376	獶 (<CJK Ideograph>)
"#

/-- encoding_tables/whatwg/index-big5.txt:16242-16398 -/
noncomputable def index111 : List Text := lines! r#"17427	0x74B8	璸 (<CJK Ideograph>)
17428	0x74C0	瓀 (<CJK Ideograph>)
17429	0x74B5	璵 (<CJK Ideograph>)
17430	0x74C1	瓁 (<CJK Ideograph>)
17431	0x74BE	璾 (<CJK Ideograph>)
17432	0x74B6	璶 (<CJK Ideograph>)
17433	0x74BB	璻 (<CJK Ideograph>)
17434	0x74C2	瓂 (<CJK Ideograph>)
17435	0x7514	甔 (<CJK Ideograph>)
17436	0x7513	甓 (<CJK Ideograph>)
17437	0x765C	癜 (<CJK Ideograph>)
17438	0x7664	癤 (<CJK Ideograph>)
17439	0x7659	癙 (<CJK Ideograph>)
17440	0x7650	癐 (<CJK Ideograph>)
17441	0x7653	癓 (<CJK Ideograph>)
17442	0x7657	癗 (<CJK Ideograph>)
17443	0x765A	癚 (<CJK Ideograph>)
17444	0x76A6	皦 (<CJK Ideograph>)
17445	0x76BD	皽 (<CJK Ideograph>)
17446	0x76EC	盬 (<CJK Ideograph>)
17447	0x77C2	矂 (<CJK Ideograph>)
17448	0x77BA	瞺 (<CJK Ideograph>)
17449	0x78FF	磿 (<CJK Ideograph>)
17450	0x790C	礌 (<CJK Ideograph>)
17451	0x7913	礓 (<CJK Ideograph>)
17452	0x7914	礔 (<CJK Ideograph>)
17453	0x7909	礉 (<CJK Ideograph>)
17454	0x7910	礐 (<CJK Ideograph>)
17455	0x7912	礒 (<CJK Ideograph>)
17456	0x7911	礑 (<CJK Ideograph>)
17457	0x79AD	禭 (<CJK Ideograph>)
17458	0x79AC	禬 (<CJK Ideograph>)
17459	0x7A5F	穟 (<CJK Ideograph>)
17460	0x7C1C	簜 (<CJK Ideograph>)
17461	0x7C29	簩 (<CJK Ideograph>)
17462	0x7C19	簙 (<CJK Ideograph>)
17463	0x7C20	簠 (<CJK Ideograph>)
17464	0x7C1F	簟 (<CJK Ideograph>)
17465	0x7C2D	簭 (<CJK Ideograph>)
17466	0x7C1D	簝 (<CJK Ideograph>)
17467	0x7C26	簦 (<CJK Ideograph>)
17468	0x7C28	簨 (<CJK Ideograph>)
17469	0x7C22	簢 (<CJK Ideograph>)
17470	0x7C25	簥 (<CJK Ideograph>)
17471	0x7C30	簰 (<CJK Ideograph>)
17472	0x7E5C	繜 (<CJK Ideograph>)
17473	0x7E50	繐 (<CJK Ideograph>)
17474	0x7E56	繖 (<CJK Ideograph>)
17475	0x7E63	繣 (<CJK Ideograph>)
17476	0x7E58	繘 (<CJK Ideograph>)
17477	0x7E62	繢 (<CJK Ideograph>)
17478	0x7E5F	繟 (<CJK Ideograph>)
17479	0x7E51	繑 (<CJK Ideograph>)
17480	0x7E60	繠 (<CJK Ideograph>)
17481	0x7E57	繗 (<CJK Ideograph>)
17482	0x7E53	繓 (<CJK Ideograph>)
17483	0x7FB5	羵 (<CJK Ideograph>)
17484	0x7FB3	羳 (<CJK Ideograph>)
17485	0x7FF7	翷 (<CJK Ideograph>)
17486	0x7FF8	翸 (<CJK Ideograph>)
17487	0x8075	聵 (<CJK Ideograph>)
17488	0x81D1	臑 (<CJK Ideograph>)
17489	0x81D2	臒 (<CJK Ideograph>)
17490	0x81D0	臐 (<CJK Ideograph>)
17491	0x825F	艟 (<CJK Ideograph>)
17492	0x825E	艞 (<CJK Ideograph>)
17493	0x85B4	薴 (<CJK Ideograph>)
17494	0x85C6	藆 (<CJK Ideograph>)
17495	0x85C0	藀 (<CJK Ideograph>)
17496	0x85C3	藃 (<CJK Ideograph>)
17497	0x85C2	藂 (<CJK Ideograph>)
17498	0x85B3	薳 (<CJK Ideograph>)
17499	0x85B5	薵 (<CJK Ideograph>)
17500	0x85BD	薽 (<CJK Ideograph>)
17501	0x85C7	藇 (<CJK Ideograph>)
17502	0x85C4	藄 (<CJK Ideograph>)
17503	0x85BF	薿 (<CJK Ideograph>)
17504	0x85CB	藋 (<CJK Ideograph>)
17505	0x85CE	藎 (<CJK Ideograph>)
17506	0x85C8	藈 (<CJK Ideograph>)
17507	0x85C5	藅 (<CJK Ideograph>)
17508	0x85B1	薱 (<CJK Ideograph>)
17509	0x85B6	薶 (<CJK Ideograph>)
17510	0x85D2	藒 (<CJK Ideograph>)
17511	0x8624	蘤 (<CJK Ideograph>)
17512	0x85B8	薸 (<CJK Ideograph>)
17513	0x85B7	薷 (<CJK Ideograph>)
17514	0x85BE	薾 (<CJK Ideograph>)
17515	0x8669	虩 (<CJK Ideograph>)
17516	0x87E7	蟧 (<CJK Ideograph>)
17517	0x87E6	蟦 (<CJK Ideograph>)
17518	0x87E2	蟢 (<CJK Ideograph>)
17519	0x87DB	蟛 (<CJK Ideograph>)
17520	0x87EB	蟫 (<CJK Ideograph>)
17521	0x87EA	蟪 (<CJK Ideograph>)
17522	0x87E5	蟥 (<CJK Ideograph>)
17523	0x87DF	蟟 (<CJK Ideograph>)
17524	0x87F3	蟳 (<CJK Ideograph>)
17525	0x87E4	蟤 (<CJK Ideograph>)
17526	0x87D4	蟔 (<CJK Ideograph>)
17527	0x87DC	蟜 (<CJK Ideograph>)
17528	0x87D3	蟓 (<CJK Ideograph>)
17529	0x87ED	蟭 (<CJK Ideograph>)
17530	0x87D8	蟘 (<CJK Ideograph>)
17531	0x87E3	蟣 (<CJK Ideograph>)
17532	0x87A4	螤 (<CJK Ideograph>)
17533	0x87D7	蟗 (<CJK Ideograph>)
17534	0x87D9	蟙 (<CJK Ideograph>)
17535	0x8801	蠁 (<CJK Ideograph>)
17536	0x87F4	蟴 (<CJK Ideograph>)
17537	0x87E8	蟨 (<CJK Ideograph>)
17538	0x87DD	蟝 (<CJK Ideograph>)
17539	0x8953	襓 (<CJK Ideograph>)
17540	0x894B	襋 (<CJK Ideograph>)
17541	0x894F	襏 (<CJK Ideograph>)
17542	0x894C	襌 (<CJK Ideograph>)
17543	0x8946	襆 (<CJK Ideograph>)
17544	0x8950	襐 (<CJK Ideograph>)
17545	0x8951	襑 (<CJK Ideograph>)
17546	0x8949	襉 (<CJK Ideograph>)
17547	0x8B2A	謪 (<CJK Ideograph>)
17548	0x8B27	謧 (<CJK Ideograph>)
17549	0x8B23	謣 (<CJK Ideograph>)
17550	0x8B33	謳 (<CJK Ideograph>)
17551	0x8B30	謰 (<CJK Ideograph>)
17552	0x8B35	謵 (<CJK Ideograph>)
17553	0x8B47	譇 (<CJK Ideograph>)
17554	0x8B2F	謯 (<CJK Ideograph>)
17555	0x8B3C	謼 (<CJK Ideograph>)
17556	0x8B3E	謾 (<CJK Ideograph>)
17557	0x8B31	謱 (<CJK Ideograph>)
17558	0x8B25	謥 (<CJK Ideograph>)
17559	0x8B37	謷 (<CJK Ideograph>)
17560	0x8B26	謦 (<CJK Ideograph>)
17561	0x8B36	謶 (<CJK Ideograph>)
17562	0x8B2E	謮 (<CJK Ideograph>)
17563	0x8B24	謤 (<CJK Ideograph>)
17564	0x8B3B	謻 (<CJK Ideograph>)
17565	0x8B3D	謽 (<CJK Ideograph>)
17566	0x8B3A	謺 (<CJK Ideograph>)
17567	0x8C42	豂 (<CJK Ideograph>)
17568	0x8C75	豵 (<CJK Ideograph>)
17569	0x8C99	貙 (<CJK Ideograph>)
17570	0x8C98	貘 (<CJK Ideograph>)
17571	0x8C97	貗 (<CJK Ideograph>)
17572	0x8CFE	賾 (<CJK Ideograph>)
17573	0x8D04	贄 (<CJK Ideograph>)
17574	0x8D02	贂 (<CJK Ideograph>)
17575	0x8D00	贀 (<CJK Ideograph>)
17576	0x8E5C	蹜 (<CJK Ideograph>)
17577	0x8E62	蹢 (<CJK Ideograph>)
17578	0x8E60	蹠 (<CJK Ideograph>)
17579	0x8E57	蹗 (<CJK Ideograph>)
17580	0x8E56	蹖 (<CJK Ideograph>)
17581	0x8E5E	蹞 (<CJK Ideograph>)
17582	0x8E65	蹥 (<CJK Ideograph>)
17583	0x8E67	蹧 (<CJK Ideograph>)
"#

/-- encoding_tables/whatwg/index-big5.txt:16399-16555 -/
noncomputable def index112 : List Text := lines! r#"17584	0x8E5B	蹛 (<CJK Ideograph>)
17585	0x8E5A	蹚 (<CJK Ideograph>)
17586	0x8E61	蹡 (<CJK Ideograph>)
17587	0x8E5D	蹝 (<CJK Ideograph>)
17588	0x8E69	蹩 (<CJK Ideograph>)
17589	0x8E54	蹔 (<CJK Ideograph>)
17590	0x8F46	轆 (<CJK Ideograph>)
17591	0x8F47	轇 (<CJK Ideograph>)
17592	0x8F48	轈 (<CJK Ideograph>)
17593	0x8F4B	轋 (<CJK Ideograph>)
17594	0x9128	鄨 (<CJK Ideograph>)
17595	0x913A	鄺 (<CJK Ideograph>)
17596	0x913B	鄻 (<CJK Ideograph>)
17597	0x913E	鄾 (<CJK Ideograph>)
17598	0x91A8	醨 (<CJK Ideograph>)
17599	0x91A5	醥 (<CJK Ideograph>)
17600	0x91A7	醧 (<CJK Ideograph>)
17601	0x91AF	醯 (<CJK Ideograph>)
17602	0x91AA	醪 (<CJK Ideograph>)
17603	0x93B5	鎵 (<CJK Ideograph>)
17604	0x938C	鎌 (<CJK Ideograph>)
17605	0x9392	鎒 (<CJK Ideograph>)
17606	0x93B7	鎷 (<CJK Ideograph>)
17607	0x939B	鎛 (<CJK Ideograph>)
17608	0x939D	鎝 (<CJK Ideograph>)
17609	0x9389	鎉 (<CJK Ideograph>)
17610	0x93A7	鎧 (<CJK Ideograph>)
17611	0x938E	鎎 (<CJK Ideograph>)
17612	0x93AA	鎪 (<CJK Ideograph>)
17613	0x939E	鎞 (<CJK Ideograph>)
17614	0x93A6	鎦 (<CJK Ideograph>)
17615	0x9395	鎕 (<CJK Ideograph>)
17616	0x9388	鎈 (<CJK Ideograph>)
17617	0x9399	鎙 (<CJK Ideograph>)
17618	0x939F	鎟 (<CJK Ideograph>)
17619	0x938D	鎍 (<CJK Ideograph>)
17620	0x93B1	鎱 (<CJK Ideograph>)
17621	0x9391	鎑 (<CJK Ideograph>)
17622	0x93B2	鎲 (<CJK Ideograph>)
17623	0x93A4	鎤 (<CJK Ideograph>)
17624	0x93A8	鎨 (<CJK Ideograph>)
17625	0x93B4	鎴 (<CJK Ideograph>)
17626	0x93A3	鎣 (<CJK Ideograph>)
17627	0x93A5	鎥 (<CJK Ideograph>)
17628	0x95D2	闒 (<CJK Ideograph>)
17629	0x95D3	闓 (<CJK Ideograph>)
17630	0x95D1	闑 (<CJK Ideograph>)
17631	0x96B3	隳 (<CJK Ideograph>)
17632	0x96D7	雗 (<CJK Ideograph>)
17633	0x96DA	雚 (<CJK Ideograph>)
17634	0x5DC2	巂 (<CJK Ideograph>)
17635	0x96DF	雟 (<CJK Ideograph>)
17636	0x96D8	雘 (<CJK Ideograph>)
17637	0x96DD	雝 (<CJK Ideograph>)
17638	0x9723	霣 (<CJK Ideograph>)
17639	0x9722	霢 (<CJK Ideograph>)
17640	0x9725	霥 (<CJK Ideograph>)
17641	0x97AC	鞬 (<CJK Ideograph>)
17642	0x97AE	鞮 (<CJK Ideograph>)
17643	0x97A8	鞨 (<CJK Ideograph>)
17644	0x97AB	鞫 (<CJK Ideograph>)
17645	0x97A4	鞤 (<CJK Ideograph>)
17646	0x97AA	鞪 (<CJK Ideograph>)
17647	0x97A2	鞢 (<CJK Ideograph>)
17648	0x97A5	鞥 (<CJK Ideograph>)
17649	0x97D7	韗 (<CJK Ideograph>)
17650	0x97D9	韙 (<CJK Ideograph>)
17651	0x97D6	韖 (<CJK Ideograph>)
17652	0x97D8	韘 (<CJK Ideograph>)
17653	0x97FA	韺 (<CJK Ideograph>)
17654	0x9850	顐 (<CJK Ideograph>)
17655	0x9851	顑 (<CJK Ideograph>)
17656	0x9852	顒 (<CJK Ideograph>)
17657	0x98B8	颸 (<CJK Ideograph>)
17658	0x9941	饁 (<CJK Ideograph>)
17659	0x993C	餼 (<CJK Ideograph>)
17660	0x993A	餺 (<CJK Ideograph>)
17661	0x9A0F	騏 (<CJK Ideograph>)
17662	0x9A0B	騋 (<CJK Ideograph>)
17663	0x9A09	騉 (<CJK Ideograph>)
17664	0x9A0D	騍 (<CJK Ideograph>)
17665	0x9A04	騄 (<CJK Ideograph>)
17666	0x9A11	騑 (<CJK Ideograph>)
17667	0x9A0A	騊 (<CJK Ideograph>)
17668	0x9A05	騅 (<CJK Ideograph>)
17669	0x9A07	騇 (<CJK Ideograph>)
17670	0x9A06	騆 (<CJK Ideograph>)
17671	0x9AC0	髀 (<CJK Ideograph>)
17672	0x9ADC	髜 (<CJK Ideograph>)
17673	0x9B08	鬈 (<CJK Ideograph>)
17674	0x9B04	鬄 (<CJK Ideograph>)
17675	0x9B05	鬅 (<CJK Ideograph>)
17676	0x9B29	鬩 (<CJK Ideograph>)
17677	0x9B35	鬵 (<CJK Ideograph>)
17678	0x9B4A	魊 (<CJK Ideograph>)
17679	0x9B4C	魌 (<CJK Ideograph>)
17680	0x9B4B	魋 (<CJK Ideograph>)
17681	0x9BC7	鯇 (<CJK Ideograph>)
17682	0x9BC6	鯆 (<CJK Ideograph>)
17683	0x9BC3	鯃 (<CJK Ideograph>)
17684	0x9BBF	鮿 (<CJK Ideograph>)
17685	0x9BC1	鯁 (<CJK Ideograph>)
17686	0x9BB5	鮵 (<CJK Ideograph>)
17687	0x9BB8	鮸 (<CJK Ideograph>)
17688	0x9BD3	鯓 (<CJK Ideograph>)
17689	0x9BB6	鮶 (<CJK Ideograph>)
17690	0x9BC4	鯄 (<CJK Ideograph>)
17691	0x9BB9	鮹 (<CJK Ideograph>)
17692	0x9BBD	鮽 (<CJK Ideograph>)
17693	0x9D5C	鵜 (<CJK Ideograph>)
17694	0x9D53	鵓 (<CJK Ideograph>)
17695	0x9D4F	鵏 (<CJK Ideograph>)
17696	0x9D4A	鵊 (<CJK Ideograph>)
17697	0x9D5B	鵛 (<CJK Ideograph>)
17698	0x9D4B	鵋 (<CJK Ideograph>)
17699	0x9D59	鵙 (<CJK Ideograph>)
17700	0x9D56	鵖 (<CJK Ideograph>)
17701	0x9D4C	鵌 (<CJK Ideograph>)
17702	0x9D57	鵗 (<CJK Ideograph>)
17703	0x9D52	鵒 (<CJK Ideograph>)
17704	0x9D54	鵔 (<CJK Ideograph>)
17705	0x9D5F	鵟 (<CJK Ideograph>)
17706	0x9D58	鵘 (<CJK Ideograph>)
17707	0x9D5A	鵚 (<CJK Ideograph>)
17708	0x9E8E	麎 (<CJK Ideograph>)
17709	0x9E8C	麌 (<CJK Ideograph>)
17710	0x9EDF	黟 (<CJK Ideograph>)
17711	0x9F01	鼁 (<CJK Ideograph>)
17712	0x9F00	鼀 (<CJK Ideograph>)
17713	0x9F16	鼖 (<CJK Ideograph>)
17714	0x9F25	鼥 (<CJK Ideograph>)
17715	0x9F2B	鼫 (<CJK Ideograph>)
17716	0x9F2A	鼪 (<CJK Ideograph>)
17717	0x9F29	鼩 (<CJK Ideograph>)
17718	0x9F28	鼨 (<CJK Ideograph>)
17719	0x9F4C	齌 (<CJK Ideograph>)
17720	0x9F55	齕 (<CJK Ideograph>)
17721	0x5134	儴 (<CJK Ideograph>)
17722	0x5135	儵 (<CJK Ideograph>)
17723	0x5296	劖 (<CJK Ideograph>)
17724	0x52F7	勷 (<CJK Ideograph>)
17725	0x53B4	厴 (<CJK Ideograph>)
17726	0x56AB	嚫 (<CJK Ideograph>)
17727	0x56AD	嚭 (<CJK Ideograph>)
17728	0x56A6	嚦 (<CJK Ideograph>)
17729	0x56A7	嚧 (<CJK Ideograph>)
17730	0x56AA	嚪 (<CJK Ideograph>)
17731	0x56AC	嚬 (<CJK Ideograph>)
17732	0x58DA	壚 (<CJK Ideograph>)
17733	0x58DD	壝 (<CJK Ideograph>)
17734	0x58DB	壛 (<CJK Ideograph>)
17735	0x5912	夒 (<CJK Ideograph>)
17736	0x5B3D	嬽 (<CJK Ideograph>)
17737	0x5B3E	嬾 (<CJK Ideograph>)
17738	0x5B3F	嬿 (<CJK Ideograph>)
17739	0x5DC3	巃 (<CJK Ideograph>)
17740	0x5E70	幰 (<CJK Ideograph>)
"#

/-- encoding_tables/whatwg/index-big5.txt:16556-16712 -/
noncomputable def index113 : List Text := lines! r#"17741	0x5FBF	徿 (<CJK Ideograph>)
17742	0x61FB	懻 (<CJK Ideograph>)
17743	0x6507	攇 (<CJK Ideograph>)
17744	0x6510	攐 (<CJK Ideograph>)
17745	0x650D	攍 (<CJK Ideograph>)
17746	0x6509	攉 (<CJK Ideograph>)
17747	0x650C	攌 (<CJK Ideograph>)
17748	0x650E	攎 (<CJK Ideograph>)
17749	0x6584	斄 (<CJK Ideograph>)
17750	0x65DE	旞 (<CJK Ideograph>)
17751	0x65DD	旝 (<CJK Ideograph>)
17752	0x66DE	曞 (<CJK Ideograph>)
17753	0x6AE7	櫧 (<CJK Ideograph>)
17754	0x6AE0	櫠 (<CJK Ideograph>)
17755	0x6ACC	櫌 (<CJK Ideograph>)
17756	0x6AD1	櫑 (<CJK Ideograph>)
17757	0x6AD9	櫙 (<CJK Ideograph>)
17758	0x6ACB	櫋 (<CJK Ideograph>)
17759	0x6ADF	櫟 (<CJK Ideograph>)
17760	0x6ADC	櫜 (<CJK Ideograph>)
17761	0x6AD0	櫐 (<CJK Ideograph>)
17762	0x6AEB	櫫 (<CJK Ideograph>)
17763	0x6ACF	櫏 (<CJK Ideograph>)
17764	0x6ACD	櫍 (<CJK Ideograph>)
17765	0x6ADE	櫞 (<CJK Ideograph>)
17766	0x6B60	歠 (<CJK Ideograph>)
17767	0x6BB0	殰 (<CJK Ideograph>)
17768	0x6C0C	氌 (<CJK Ideograph>)
17769	0x7019	瀙 (<CJK Ideograph>)
17770	0x7027	瀧 (<CJK Ideograph>)
17771	0x7020	瀠 (<CJK Ideograph>)
17772	0x7016	瀖 (<CJK Ideograph>)
17773	0x702B	瀫 (<CJK Ideograph>)
17774	0x7021	瀡 (<CJK Ideograph>)
17775	0x7022	瀢 (<CJK Ideograph>)
17776	0x7023	瀣 (<CJK Ideograph>)
17777	0x7029	瀩 (<CJK Ideograph>)
17778	0x7017	瀗 (<CJK Ideograph>)
17779	0x7024	瀤 (<CJK Ideograph>)
17780	0x701C	瀜 (<CJK Ideograph>)
17781	0x702A	瀪 (<CJK Ideograph>)
17782	0x720C	爌 (<CJK Ideograph>)
17783	0x720A	爊 (<CJK Ideograph>)
17784	0x7207	爇 (<CJK Ideograph>)
17785	0x7202	爂 (<CJK Ideograph>)
17786	0x7205	爅 (<CJK Ideograph>)
17787	0x72A5	犥 (<CJK Ideograph>)
17788	0x72A6	犦 (<CJK Ideograph>)
17789	0x72A4	犤 (<CJK Ideograph>)
17790	0x72A3	犣 (<CJK Ideograph>)
17791	0x72A1	犡 (<CJK Ideograph>)
17792	0x74CB	瓋 (<CJK Ideograph>)
17793	0x74C5	瓅 (<CJK Ideograph>)
17794	0x74B7	璷 (<CJK Ideograph>)
17795	0x74C3	瓃 (<CJK Ideograph>)
17796	0x7516	甖 (<CJK Ideograph>)
17797	0x7660	癠 (<CJK Ideograph>)
17798	0x77C9	矉 (<CJK Ideograph>)
17799	0x77CA	矊 (<CJK Ideograph>)
17800	0x77C4	矄 (<CJK Ideograph>)
17801	0x77F1	矱 (<CJK Ideograph>)
17802	0x791D	礝 (<CJK Ideograph>)
17803	0x791B	礛 (<CJK Ideograph>)
17804	0x7921	礡 (<CJK Ideograph>)
17805	0x791C	礜 (<CJK Ideograph>)
17806	0x7917	礗 (<CJK Ideograph>)
17807	0x791E	礞 (<CJK Ideograph>)
17808	0x79B0	禰 (<CJK Ideograph>)
17809	0x7A67	穧 (<CJK Ideograph>)
17810	0x7A68	穨 (<CJK Ideograph>)
17811	0x7C33	簳 (<CJK Ideograph>)
17812	0x7C3C	簼 (<CJK Ideograph>)
17813	0x7C39	簹 (<CJK Ideograph>)
17814	0x7C2C	簬 (<CJK Ideograph>)
17815	0x7C3B	簻 (<CJK Ideograph>)
17816	0x7CEC	糬 (<CJK Ideograph>)
17817	0x7CEA	糪 (<CJK Ideograph>)
17818	0x7E76	繶 (<CJK Ideograph>)
17819	0x7E75	繵 (<CJK Ideograph>)
17820	0x7E78	繸 (<CJK Ideograph>)
17821	0x7E70	繰 (<CJK Ideograph>)
17822	0x7E77	繷 (<CJK Ideograph>)
17823	0x7E6F	繯 (<CJK Ideograph>)
17824	0x7E7A	繺 (<CJK Ideograph>)
17825	0x7E72	繲 (<CJK Ideograph>)
17826	0x7E74	繴 (<CJK Ideograph>)
17827	0x7E68	繨 (<CJK Ideograph>)
17828	0x7F4B	罋 (<CJK Ideograph>)
17829	0x7F4A	罊 (<CJK Ideograph>)
17830	0x7F83	羃 (<CJK Ideograph>)
17831	0x7F86	羆 (<CJK Ideograph>)
17832	0x7FB7	羷 (<CJK Ideograph>)
17833	0x7FFD	翽 (<CJK Ideograph>)
17834	0x7FFE	翾 (<CJK Ideograph>)
17835	0x8078	聸 (<CJK Ideograph>)
17836	0x81D7	臗 (<CJK Ideograph>)
17837	0x81D5	臕 (<CJK Ideograph>)
17838	0x8264	艤 (<CJK Ideograph>)
17839	0x8261	艡 (<CJK Ideograph>)
17840	0x8263	艣 (<CJK Ideograph>)
17841	0x85EB	藫 (<CJK Ideograph>)
17842	0x85F1	藱 (<CJK Ideograph>)
17843	0x85ED	藭 (<CJK Ideograph>)
17844	0x85D9	藙 (<CJK Ideograph>)
17845	0x85E1	藡 (<CJK Ideograph>)
17846	0x85E8	藨 (<CJK Ideograph>)
17847	0x85DA	藚 (<CJK Ideograph>)
17848	0x85D7	藗 (<CJK Ideograph>)
17849	0x85EC	藬 (<CJK Ideograph>)
17850	0x85F2	藲 (<CJK Ideograph>)
17851	0x85F8	藸 (<CJK Ideograph>)
17852	0x85D8	藘 (<CJK Ideograph>)
17853	0x85DF	藟 (<CJK Ideograph>)
17854	0x85E3	藣 (<CJK Ideograph>)
17855	0x85DC	藜 (<CJK Ideograph>)
17856	0x85D1	藑 (<CJK Ideograph>)
17857	0x85F0	藰 (<CJK Ideograph>)
17858	0x85E6	藦 (<CJK Ideograph>)
17859	0x85EF	藯 (<CJK Ideograph>)
17860	0x85DE	藞 (<CJK Ideograph>)
17861	0x85E2	藢 (<CJK Ideograph>)
17862	0x8800	蠀 (<CJK Ideograph>)
17863	0x87FA	蟺 (<CJK Ideograph>)
17864	0x8803	蠃 (<CJK Ideograph>)
17865	0x87F6	蟶 (<CJK Ideograph>)
17866	0x87F7	蟷 (<CJK Ideograph>)
17867	0x8809	蠉 (<CJK Ideograph>)
17868	0x880C	蠌 (<CJK Ideograph>)
17869	0x880B	蠋 (<CJK Ideograph>)
17870	0x8806	蠆 (<CJK Ideograph>)
17871	0x87FC	蟼 (<CJK Ideograph>)
17872	0x8808	蠈 (<CJK Ideograph>)
17873	0x87FF	蟿 (<CJK Ideograph>)
17874	0x880A	蠊 (<CJK Ideograph>)
17875	0x8802	蠂 (<CJK Ideograph>)
17876	0x8962	襢 (<CJK Ideograph>)
17877	0x895A	襚 (<CJK Ideograph>)
17878	0x895B	襛 (<CJK Ideograph>)
17879	0x8957	襗 (<CJK Ideograph>)
17880	0x8961	襡 (<CJK Ideograph>)
17881	0x895C	襜 (<CJK Ideograph>)
17882	0x8958	襘 (<CJK Ideograph>)
17883	0x895D	襝 (<CJK Ideograph>)
17884	0x8959	襙 (<CJK Ideograph>)
17885	0x8988	覈 (<CJK Ideograph>)
17886	0x89B7	覷 (<CJK Ideograph>)
17887	0x89B6	覶 (<CJK Ideograph>)
17888	0x89F6	觶 (<CJK Ideograph>)
17889	0x8B50	譐 (<CJK Ideograph>)
17890	0x8B48	譈 (<CJK Ideograph>)
17891	0x8B4A	譊 (<CJK Ideograph>)
17892	0x8B40	譀 (<CJK Ideograph>)
17893	0x8B53	譓 (<CJK Ideograph>)
17894	0x8B56	譖 (<CJK Ideograph>)
17895	0x8B54	譔 (<CJK Ideograph>)
17896	0x8B4B	譋 (<CJK Ideograph>)
17897	0x8B55	譕 (<CJK Ideograph>)
"#

/-- encoding_tables/whatwg/index-big5.txt:16713-16869 -/
noncomputable def index114 : List Text := lines! r#"17898	0x8B51	譑 (<CJK Ideograph>)
17899	0x8B42	譂 (<CJK Ideograph>)
17900	0x8B52	譒 (<CJK Ideograph>)
17901	0x8B57	譗 (<CJK Ideograph>)
17902	0x8C43	豃 (<CJK Ideograph>)
17903	0x8C77	豷 (<CJK Ideograph>)
17904	0x8C76	豶 (<CJK Ideograph>)
17905	0x8C9A	貚 (<CJK Ideograph>)
17906	0x8D06	贆 (<CJK Ideograph>)
17907	0x8D07	贇 (<CJK Ideograph>)
17908	0x8D09	贉 (<CJK Ideograph>)
17909	0x8DAC	趬 (<CJK Ideograph>)
17910	0x8DAA	趪 (<CJK Ideograph>)
17911	0x8DAD	趭 (<CJK Ideograph>)
17912	0x8DAB	趫 (<CJK Ideograph>)
17913	0x8E6D	蹭 (<CJK Ideograph>)
17914	0x8E78	蹸 (<CJK Ideograph>)
17915	0x8E73	蹳 (<CJK Ideograph>)
17916	0x8E6A	蹪 (<CJK Ideograph>)
17917	0x8E6F	蹯 (<CJK Ideograph>)
17918	0x8E7B	蹻 (<CJK Ideograph>)
17919	0x8EC2	軂 (<CJK Ideograph>)
17920	0x8F52	轒 (<CJK Ideograph>)
17921	0x8F51	轑 (<CJK Ideograph>)
17922	0x8F4F	轏 (<CJK Ideograph>)
17923	0x8F50	轐 (<CJK Ideograph>)
17924	0x8F53	轓 (<CJK Ideograph>)
17925	0x8FB4	辴 (<CJK Ideograph>)
17926	0x9140	酀 (<CJK Ideograph>)
17927	0x913F	鄿 (<CJK Ideograph>)
17928	0x91B0	醰 (<CJK Ideograph>)
17929	0x91AD	醭 (<CJK Ideograph>)
17930	0x93DE	鏞 (<CJK Ideograph>)
17931	0x93C7	鏇 (<CJK Ideograph>)
17932	0x93CF	鏏 (<CJK Ideograph>)
17933	0x93C2	鏂 (<CJK Ideograph>)
17934	0x93DA	鏚 (<CJK Ideograph>)
17935	0x93D0	鏐 (<CJK Ideograph>)
17936	0x93F9	鏹 (<CJK Ideograph>)
17937	0x93EC	鏬 (<CJK Ideograph>)
17938	0x93CC	鏌 (<CJK Ideograph>)
17939	0x93D9	鏙 (<CJK Ideograph>)
17940	0x93A9	鎩 (<CJK Ideograph>)
17941	0x93E6	鏦 (<CJK Ideograph>)
17942	0x93CA	鏊 (<CJK Ideograph>)
17943	0x93D4	鏔 (<CJK Ideograph>)
17944	0x93EE	鏮 (<CJK Ideograph>)
17945	0x93E3	鏣 (<CJK Ideograph>)
17946	0x93D5	鏕 (<CJK Ideograph>)
17947	0x93C4	鏄 (<CJK Ideograph>)
17948	0x93CE	鏎 (<CJK Ideograph>)
17949	0x93C0	鏀 (<CJK Ideograph>)
17950	0x93D2	鏒 (<CJK Ideograph>)
17951	0x93E7	鏧 (<CJK Ideograph>)
17952	0x957D	镽 (<CJK Ideograph>)
17953	0x95DA	闚 (<CJK Ideograph>)
17954	0x95DB	闛 (<CJK Ideograph>)
17955	0x96E1	雡 (<CJK Ideograph>)
17956	0x9729	霩 (<CJK Ideograph>)
17957	0x972B	霫 (<CJK Ideograph>)
17958	0x972C	霬 (<CJK Ideograph>)
17959	0x9728	霨 (<CJK Ideograph>)
17960	0x9726	霦 (<CJK Ideograph>)
17961	0x97B3	鞳 (<CJK Ideograph>)
17962	0x97B7	鞷 (<CJK Ideograph>)
17963	0x97B6	鞶 (<CJK Ideograph>)
17964	0x97DD	韝 (<CJK Ideograph>)
17965	0x97DE	韞 (<CJK Ideograph>)
17966	0x97DF	韟 (<CJK Ideograph>)
17967	0x985C	顜 (<CJK Ideograph>)
17968	0x9859	顙 (<CJK Ideograph>)
17969	0x985D	顝 (<CJK Ideograph>)
17970	0x9857	顗 (<CJK Ideograph>)
17971	0x98BF	颿 (<CJK Ideograph>)
17972	0x98BD	颽 (<CJK Ideograph>)
17973	0x98BB	颻 (<CJK Ideograph>)
17974	0x98BE	颾 (<CJK Ideograph>)
17975	0x9948	饈 (<CJK Ideograph>)
17976	0x9947	饇 (<CJK Ideograph>)
17977	0x9943	饃 (<CJK Ideograph>)
17978	0x99A6	馦 (<CJK Ideograph>)
17979	0x99A7	馧 (<CJK Ideograph>)
17980	0x9A1A	騚 (<CJK Ideograph>)
17981	0x9A15	騕 (<CJK Ideograph>)
17982	0x9A25	騥 (<CJK Ideograph>)
17983	0x9A1D	騝 (<CJK Ideograph>)
17984	0x9A24	騤 (<CJK Ideograph>)
17985	0x9A1B	騛 (<CJK Ideograph>)
17986	0x9A22	騢 (<CJK Ideograph>)
17987	0x9A20	騠 (<CJK Ideograph>)
17988	0x9A27	騧 (<CJK Ideograph>)
17989	0x9A23	騣 (<CJK Ideograph>)
17990	0x9A1E	騞 (<CJK Ideograph>)
17991	0x9A1C	騜 (<CJK Ideograph>)
17992	0x9A14	騔 (<CJK Ideograph>)
17993	0x9AC2	髂 (<CJK Ideograph>)
17994	0x9B0B	鬋 (<CJK Ideograph>)
17995	0x9B0A	鬊 (<CJK Ideograph>)
17996	0x9B0E	鬎 (<CJK Ideograph>)
17997	0x9B0C	鬌 (<CJK Ideograph>)
17998	0x9B37	鬷 (<CJK Ideograph>)
17999	0x9BEA	鯪 (<CJK Ideograph>)
18000	0x9BEB	鯫 (<CJK Ideograph>)
18001	0x9BE0	鯠 (<CJK Ideograph>)
18002	0x9BDE	鯞 (<CJK Ideograph>)
18003	0x9BE4	鯤 (<CJK Ideograph>)
18004	0x9BE6	鯦 (<CJK Ideograph>)
18005	0x9BE2	鯢 (<CJK Ideograph>)
18006	0x9BF0	鯰 (<CJK Ideograph>)
18007	0x9BD4	鯔 (<CJK Ideograph>)
18008	0x9BD7	鯗 (<CJK Ideograph>)
18009	0x9BEC	鯬 (<CJK Ideograph>)
18010	0x9BDC	鯜 (<CJK Ideograph>)
18011	0x9BD9	鯙 (<CJK Ideograph>)
18012	0x9BE5	鯥 (<CJK Ideograph>)
18013	0x9BD5	鯕 (<CJK Ideograph>)
18014	0x9BE1	鯡 (<CJK Ideograph>)
18015	0x9BDA	鯚 (<CJK Ideograph>)
18016	0x9D77	鵷 (<CJK Ideograph>)
18017	0x9D81	鶁 (<CJK Ideograph>)
18018	0x9D8A	鶊 (<CJK Ideograph>)
18019	0x9D84	鶄 (<CJK Ideograph>)
18020	0x9D88	鶈 (<CJK Ideograph>)
18021	0x9D71	鵱 (<CJK Ideograph>)
18022	0x9D80	鶀 (<CJK Ideograph>)
18023	0x9D78	鵸 (<CJK Ideograph>)
18024	0x9D86	鶆 (<CJK Ideograph>)
18025	0x9D8B	鶋 (<CJK Ideograph>)
18026	0x9D8C	鶌 (<CJK Ideograph>)
18027	0x9D7D	鵽 (<CJK Ideograph>)
18028	0x9D6B	鵫 (<CJK Ideograph>)
18029	0x9D74	鵴 (<CJK Ideograph>)
18030	0x9D75	鵵 (<CJK Ideograph>)
18031	0x9D70	鵰 (<CJK Ideograph>)
18032	0x9D69	鵩 (<CJK Ideograph>)
18033	0x9D85	鶅 (<CJK Ideograph>)
18034	0x9D73	鵳 (<CJK Ideograph>)
18035	0x9D7B	鵻 (<CJK Ideograph>)
18036	0x9D82	鶂 (<CJK Ideograph>)
18037	0x9D6F	鵯 (<CJK Ideograph>)
18038	0x9D79	鵹 (<CJK Ideograph>)
18039	0x9D7F	鵿 (<CJK Ideograph>)
18040	0x9D87	鶇 (<CJK Ideograph>)
18041	0x9D68	鵨 (<CJK Ideograph>)
18042	0x9E94	麔 (<CJK Ideograph>)
18043	0x9E91	麑 (<CJK Ideograph>)
18044	0x9EC0	黀 (<CJK Ideograph>)
18045	0x9EFC	黼 (<CJK Ideograph>)
18046	0x9F2D	鼭 (<CJK Ideograph>)
18047	0x9F40	齀 (<CJK Ideograph>)
18048	0x9F41	齁 (<CJK Ideograph>)
18049	0x9F4D	齍 (<CJK Ideograph>)
18050	0x9F56	齖 (<CJK Ideograph>)
18051	0x9F57	齗 (<CJK Ideograph>)
18052	0x9F58	齘 (<CJK Ideograph>)
18053	0x5337	匷 (<CJK Ideograph>)
18054	0x56B2	嚲 (<CJK Ideograph>)
"#

/-- encoding_tables/whatwg/index-big5.txt:16870-17026 -/
noncomputable def index115 : List Text := lines! r#"18055	0x56B5	嚵 (<CJK Ideograph>)
18056	0x56B3	嚳 (<CJK Ideograph>)
18057	0x58E3	壣 (<CJK Ideograph>)
18058	0x5B45	孅 (<CJK Ideograph>)
18059	0x5DC6	巆 (<CJK Ideograph>)
18060	0x5DC7	巇 (<CJK Ideograph>)
18061	0x5EEE	廮 (<CJK Ideograph>)
18062	0x5EEF	廯 (<CJK Ideograph>)
18063	0x5FC0	忀 (<CJK Ideograph>)
18064	0x5FC1	忁 (<CJK Ideograph>)
18065	0x61F9	懹 (<CJK Ideograph>)
18066	0x6517	攗 (<CJK Ideograph>)
18067	0x6516	攖 (<CJK Ideograph>)
18068	0x6515	攕 (<CJK Ideograph>)
18069	0x6513	攓 (<CJK Ideograph>)
18070	0x65DF	旟 (<CJK Ideograph>)
18071	0x66E8	曨 (<CJK Ideograph>)
18072	0x66E3	曣 (<CJK Ideograph>)
18073	0x66E4	曤 (<CJK Ideograph>)
18074	0x6AF3	櫳 (<CJK Ideograph>)
18075	0x6AF0	櫰 (<CJK Ideograph>)
18076	0x6AEA	櫪 (<CJK Ideograph>)
18077	0x6AE8	櫨 (<CJK Ideograph>)
18078	0x6AF9	櫹 (<CJK Ideograph>)
18079	0x6AF1	櫱 (<CJK Ideograph>)
18080	0x6AEE	櫮 (<CJK Ideograph>)
18081	0x6AEF	櫯 (<CJK Ideograph>)
18082	0x703C	瀼 (<CJK Ideograph>)
18083	0x7035	瀵 (<CJK Ideograph>)
18084	0x702F	瀯 (<CJK Ideograph>)
18085	0x7037	瀷 (<CJK Ideograph>)
18086	0x7034	瀴 (<CJK Ideograph>)
18087	0x7031	瀱 (<CJK Ideograph>)
18088	0x7042	灂 (<CJK Ideograph>)
18089	0x7038	瀸 (<CJK Ideograph>)
18090	0x703F	瀿 (<CJK Ideograph>)
18091	0x703A	瀺 (<CJK Ideograph>)
18092	0x7039	瀹 (<CJK Ideograph>)
18093	0x7040	灀 (<CJK Ideograph>)
18094	0x703B	瀻 (<CJK Ideograph>)
18095	0x7033	瀳 (<CJK Ideograph>)
18096	0x7041	灁 (<CJK Ideograph>)
18097	0x7213	爓 (<CJK Ideograph>)
18098	0x7214	爔 (<CJK Ideograph>)
18099	0x72A8	犨 (<CJK Ideograph>)
18100	0x737D	獽 (<CJK Ideograph>)
18101	0x737C	獼 (<CJK Ideograph>)
18102	0x74BA	璺 (<CJK Ideograph>)
18103	0x76AB	皫 (<CJK Ideograph>)
18104	0x76AA	皪 (<CJK Ideograph>)
18105	0x76BE	皾 (<CJK Ideograph>)
18106	0x76ED	盭 (<CJK Ideograph>)
18107	0x77CC	矌 (<CJK Ideograph>)
18108	0x77CE	矎 (<CJK Ideograph>)
18109	0x77CF	矏 (<CJK Ideograph>)
18110	0x77CD	矍 (<CJK Ideograph>)
18111	0x77F2	矲 (<CJK Ideograph>)
18112	0x7925	礥 (<CJK Ideograph>)
18113	0x7923	礣 (<CJK Ideograph>)
18114	0x7927	礧 (<CJK Ideograph>)
18115	0x7928	礨 (<CJK Ideograph>)
18116	0x7924	礤 (<CJK Ideograph>)
18117	0x7929	礩 (<CJK Ideograph>)
18118	0x79B2	禲 (<CJK Ideograph>)
18119	0x7A6E	穮 (<CJK Ideograph>)
18120	0x7A6C	穬 (<CJK Ideograph>)
18121	0x7A6D	穭 (<CJK Ideograph>)
18122	0x7AF7	竷 (<CJK Ideograph>)
18123	0x7C49	籉 (<CJK Ideograph>)
18124	0x7C48	籈 (<CJK Ideograph>)
18125	0x7C4A	籊 (<CJK Ideograph>)
18126	0x7C47	籇 (<CJK Ideograph>)
18127	0x7C45	籅 (<CJK Ideograph>)
18128	0x7CEE	糮 (<CJK Ideograph>)
18129	0x7E7B	繻 (<CJK Ideograph>)
18130	0x7E7E	繾 (<CJK Ideograph>)
18131	0x7E81	纁 (<CJK Ideograph>)
18132	0x7E80	纀 (<CJK Ideograph>)
18133	0x7FBA	羺 (<CJK Ideograph>)
18134	0x7FFF	翿 (<CJK Ideograph>)
18135	0x8079	聹 (<CJK Ideograph>)
18136	0x81DB	臛 (<CJK Ideograph>)
18137	0x81D9	臙 (<CJK Ideograph>)
18138	0x820B	舋 (<CJK Ideograph>)
18139	0x8268	艨 (<CJK Ideograph>)
18140	0x8269	艩 (<CJK Ideograph>)
18141	0x8622	蘢 (<CJK Ideograph>)
18142	0x85FF	藿 (<CJK Ideograph>)
18143	0x8601	蘁 (<CJK Ideograph>)
18144	0x85FE	藾 (<CJK Ideograph>)
18145	0x861B	蘛 (<CJK Ideograph>)
18146	0x8600	蘀 (<CJK Ideograph>)
18147	0x85F6	藶 (<CJK Ideograph>)
18148	0x8604	蘄 (<CJK Ideograph>)
18149	0x8609	蘉 (<CJK Ideograph>)
18150	0x8605	蘅 (<CJK Ideograph>)
18151	0x860C	蘌 (<CJK Ideograph>)
18152	0x85FD	藽 (<CJK Ideograph>)
18153	0x8819	蠙 (<CJK Ideograph>)
18154	0x8810	蠐 (<CJK Ideograph>)
18155	0x8811	蠑 (<CJK Ideograph>)
18156	0x8817	蠗 (<CJK Ideograph>)
18157	0x8813	蠓 (<CJK Ideograph>)
18158	0x8816	蠖 (<CJK Ideograph>)
18159	0x8963	襣 (<CJK Ideograph>)
18160	0x8966	襦 (<CJK Ideograph>)
18161	0x89B9	覹 (<CJK Ideograph>)
18162	0x89F7	觷 (<CJK Ideograph>)
18163	0x8B60	譠 (<CJK Ideograph>)
18164	0x8B6A	譪 (<CJK Ideograph>)
18165	0x8B5D	譝 (<CJK Ideograph>)
18166	0x8B68	譨 (<CJK Ideograph>)
18167	0x8B63	譣 (<CJK Ideograph>)
18168	0x8B65	譥 (<CJK Ideograph>)
18169	0x8B67	譧 (<CJK Ideograph>)
18170	0x8B6D	譭 (<CJK Ideograph>)
18171	0x8DAE	趮 (<CJK Ideograph>)
18172	0x8E86	躆 (<CJK Ideograph>)
18173	0x8E88	躈 (<CJK Ideograph>)
18174	0x8E84	躄 (<CJK Ideograph>)
18175	0x8F59	轙 (<CJK Ideograph>)
18176	0x8F56	轖 (<CJK Ideograph>)
18177	0x8F57	轗 (<CJK Ideograph>)
18178	0x8F55	轕 (<CJK Ideograph>)
18179	0x8F58	轘 (<CJK Ideograph>)
18180	0x8F5A	轚 (<CJK Ideograph>)
18181	0x908D	邍 (<CJK Ideograph>)
18182	0x9143	酃 (<CJK Ideograph>)
18183	0x9141	酁 (<CJK Ideograph>)
18184	0x91B7	醷 (<CJK Ideograph>)
18185	0x91B5	醵 (<CJK Ideograph>)
18186	0x91B2	醲 (<CJK Ideograph>)
18187	0x91B3	醳 (<CJK Ideograph>)
18188	0x940B	鐋 (<CJK Ideograph>)
18189	0x9413	鐓 (<CJK Ideograph>)
18190	0x93FB	鏻 (<CJK Ideograph>)
18191	0x9420	鐠 (<CJK Ideograph>)
18192	0x940F	鐏 (<CJK Ideograph>)
18193	0x9414	鐔 (<CJK Ideograph>)
18194	0x93FE	鏾 (<CJK Ideograph>)
18195	0x9415	鐕 (<CJK Ideograph>)
18196	0x9410	鐐 (<CJK Ideograph>)
18197	0x9428	鐨 (<CJK Ideograph>)
18198	0x9419	鐙 (<CJK Ideograph>)
18199	0x940D	鐍 (<CJK Ideograph>)
18200	0x93F5	鏵 (<CJK Ideograph>)
18201	0x9400	鐀 (<CJK Ideograph>)
18202	0x93F7	鏷 (<CJK Ideograph>)
18203	0x9407	鐇 (<CJK Ideograph>)
18204	0x940E	鐎 (<CJK Ideograph>)
18205	0x9416	鐖 (<CJK Ideograph>)
18206	0x9412	鐒 (<CJK Ideograph>)
18207	0x93FA	鏺 (<CJK Ideograph>)
18208	0x9409	鐉 (<CJK Ideograph>)
18209	0x93F8	鏸 (<CJK Ideograph>)
18210	0x940A	鐊 (<CJK Ideograph>)
18211	0x93FF	鏿 (<CJK Ideograph>)
"#

/-- encoding_tables/whatwg/index-big5.txt:17027-17183 -/
noncomputable def index116 : List Text := lines! r#"18212	0x93FC	鏼 (<CJK Ideograph>)
18213	0x940C	鐌 (<CJK Ideograph>)
18214	0x93F6	鏶 (<CJK Ideograph>)
18215	0x9411	鐑 (<CJK Ideograph>)
18216	0x9406	鐆 (<CJK Ideograph>)
18217	0x95DE	闞 (<CJK Ideograph>)
18218	0x95E0	闠 (<CJK Ideograph>)
18219	0x95DF	闟 (<CJK Ideograph>)
18220	0x972E	霮 (<CJK Ideograph>)
18221	0x972F	霯 (<CJK Ideograph>)
18222	0x97B9	鞹 (<CJK Ideograph>)
18223	0x97BB	鞻 (<CJK Ideograph>)
18224	0x97FD	韽 (<CJK Ideograph>)
18225	0x97FE	韾 (<CJK Ideograph>)
18226	0x9860	顠 (<CJK Ideograph>)
18227	0x9862	顢 (<CJK Ideograph>)
18228	0x9863	顣 (<CJK Ideograph>)
18229	0x985F	顟 (<CJK Ideograph>)
18230	0x98C1	飁 (<CJK Ideograph>)
18231	0x98C2	飂 (<CJK Ideograph>)
18232	0x9950	饐 (<CJK Ideograph>)
18233	0x994E	饎 (<CJK Ideograph>)
18234	0x9959	饙 (<CJK Ideograph>)
18235	0x994C	饌 (<CJK Ideograph>)
18236	0x994B	饋 (<CJK Ideograph>)
18237	0x9953	饓 (<CJK Ideograph>)
18238	0x9A32	騲 (<CJK Ideograph>)
18239	0x9A34	騴 (<CJK Ideograph>)
18240	0x9A31	騱 (<CJK Ideograph>)
18241	0x9A2C	騬 (<CJK Ideograph>)
18242	0x9A2A	騪 (<CJK Ideograph>)
18243	0x9A36	騶 (<CJK Ideograph>)
18244	0x9A29	騩 (<CJK Ideograph>)
18245	0x9A2E	騮 (<CJK Ideograph>)
18246	0x9A38	騸 (<CJK Ideograph>)
18247	0x9A2D	騭 (<CJK Ideograph>)
18248	0x9AC7	髇 (<CJK Ideograph>)
18249	0x9ACA	髊 (<CJK Ideograph>)
18250	0x9AC6	髆 (<CJK Ideograph>)
18251	0x9B10	鬐 (<CJK Ideograph>)
18252	0x9B12	鬒 (<CJK Ideograph>)
18253	0x9B11	鬑 (<CJK Ideograph>)
18254	0x9C0B	鰋 (<CJK Ideograph>)
18255	0x9C08	鰈 (<CJK Ideograph>)
18256	0x9BF7	鯷 (<CJK Ideograph>)
18257	0x9C05	鰅 (<CJK Ideograph>)
18258	0x9C12	鰒 (<CJK Ideograph>)
18259	0x9BF8	鯸 (<CJK Ideograph>)
18260	0x9C40	鱀 (<CJK Ideograph>)
18261	0x9C07	鰇 (<CJK Ideograph>)
18262	0x9C0E	鰎 (<CJK Ideograph>)
18263	0x9C06	鰆 (<CJK Ideograph>)
18264	0x9C17	鰗 (<CJK Ideograph>)
18265	0x9C14	鰔 (<CJK Ideograph>)
18266	0x9C09	鰉 (<CJK Ideograph>)
18267	0x9D9F	鶟 (<CJK Ideograph>)
18268	0x9D99	鶙 (<CJK Ideograph>)
18269	0x9DA4	鶤 (<CJK Ideograph>)
18270	0x9D9D	鶝 (<CJK Ideograph>)
18271	0x9D92	鶒 (<CJK Ideograph>)
18272	0x9D98	鶘 (<CJK Ideograph>)
18273	0x9D90	鶐 (<CJK Ideograph>)
18274	0x9D9B	鶛 (<CJK Ideograph>)
18275	0x9DA0	鶠 (<CJK Ideograph>)
18276	0x9D94	鶔 (<CJK Ideograph>)
18277	0x9D9C	鶜 (<CJK Ideograph>)
18278	0x9DAA	鶪 (<CJK Ideograph>)
18279	0x9D97	鶗 (<CJK Ideograph>)
18280	0x9DA1	鶡 (<CJK Ideograph>)
18281	0x9D9A	鶚 (<CJK Ideograph>)
18282	0x9DA2	鶢 (<CJK Ideograph>)
18283	0x9DA8	鶨 (<CJK Ideograph>)
18284	0x9D9E	鶞 (<CJK Ideograph>)
18285	0x9DA3	鶣 (<CJK Ideograph>)
18286	0x9DBF	鶿 (<CJK Ideograph>)
18287	0x9DA9	鶩 (<CJK Ideograph>)
18288	0x9D96	鶖 (<CJK Ideograph>)
18289	0x9DA6	鶦 (<CJK Ideograph>)
18290	0x9DA7	鶧 (<CJK Ideograph>)
18291	0x9E99	麙 (<CJK Ideograph>)
18292	0x9E9B	麛 (<CJK Ideograph>)
18293	0x9E9A	麚 (<CJK Ideograph>)
18294	0x9EE5	黥 (<CJK Ideograph>)
18295	0x9EE4	黤 (<CJK Ideograph>)
18296	0x9EE7	黧 (<CJK Ideograph>)
18297	0x9EE6	黦 (<CJK Ideograph>)
18298	0x9F30	鼰 (<CJK Ideograph>)
18299	0x9F2E	鼮 (<CJK Ideograph>)
18300	0x9F5B	齛 (<CJK Ideograph>)
18301	0x9F60	齠 (<CJK Ideograph>)
18302	0x9F5E	齞 (<CJK Ideograph>)
18303	0x9F5D	齝 (<CJK Ideograph>)
18304	0x9F59	齙 (<CJK Ideograph>)
18305	0x9F91	龑 (<CJK Ideograph>)
18306	0x513A	儺 (<CJK Ideograph>)
18307	0x5139	儹 (<CJK Ideograph>)
18308	0x5298	劘 (<CJK Ideograph>)
18309	0x5297	劗 (<CJK Ideograph>)
18310	0x56C3	囃 (<CJK Ideograph>)
18311	0x56BD	嚽 (<CJK Ideograph>)
18312	0x56BE	嚾 (<CJK Ideograph>)
18313	0x5B48	孈 (<CJK Ideograph>)
18314	0x5B47	孇 (<CJK Ideograph>)
18315	0x5DCB	巋 (<CJK Ideograph>)
18316	0x5DCF	巏 (<CJK Ideograph>)
18317	0x5EF1	廱 (<CJK Ideograph>)
18318	0x61FD	懽 (<CJK Ideograph>)
18319	0x651B	攛 (<CJK Ideograph>)
18320	0x6B02	欂 (<CJK Ideograph>)
18321	0x6AFC	櫼 (<CJK Ideograph>)
18322	0x6B03	欃 (<CJK Ideograph>)
18323	0x6AF8	櫸 (<CJK Ideograph>)
18324	0x6B00	欀 (<CJK Ideograph>)
18325	0x7043	灃 (<CJK Ideograph>)
18326	0x7044	灄 (<CJK Ideograph>)
18327	0x704A	灊 (<CJK Ideograph>)
18328	0x7048	灈 (<CJK Ideograph>)
18329	0x7049	灉 (<CJK Ideograph>)
18330	0x7045	灅 (<CJK Ideograph>)
18331	0x7046	灆 (<CJK Ideograph>)
18332	0x721D	爝 (<CJK Ideograph>)
18333	0x721A	爚 (<CJK Ideograph>)
18334	0x7219	爙 (<CJK Ideograph>)
18335	0x737E	獾 (<CJK Ideograph>)
18336	0x7517	甗 (<CJK Ideograph>)
18337	0x766A	癪 (<CJK Ideograph>)
18338	0x77D0	矐 (<CJK Ideograph>)
18339	0x792D	礭 (<CJK Ideograph>)
18340	0x7931	礱 (<CJK Ideograph>)
18341	0x792F	礯 (<CJK Ideograph>)
18342	0x7C54	籔 (<CJK Ideograph>)
18343	0x7C53	籓 (<CJK Ideograph>)
18344	0x7CF2	糲 (<CJK Ideograph>)
18345	0x7E8A	纊 (<CJK Ideograph>)
18346	0x7E87	纇 (<CJK Ideograph>)
18347	0x7E88	纈 (<CJK Ideograph>)
18348	0x7E8B	纋 (<CJK Ideograph>)
18349	0x7E86	纆 (<CJK Ideograph>)
18350	0x7E8D	纍 (<CJK Ideograph>)
18351	0x7F4D	罍 (<CJK Ideograph>)
18352	0x7FBB	羻 (<CJK Ideograph>)
18353	0x8030	耰 (<CJK Ideograph>)
18354	0x81DD	臝 (<CJK Ideograph>)
18355	0x8618	蘘 (<CJK Ideograph>)
18356	0x862A	蘪 (<CJK Ideograph>)
18357	0x8626	蘦 (<CJK Ideograph>)
18358	0x861F	蘟 (<CJK Ideograph>)
18359	0x8623	蘣 (<CJK Ideograph>)
18360	0x861C	蘜 (<CJK Ideograph>)
18361	0x8619	蘙 (<CJK Ideograph>)
18362	0x8627	蘧 (<CJK Ideograph>)
18363	0x862E	蘮 (<CJK Ideograph>)
18364	0x8621	蘡 (<CJK Ideograph>)
18365	0x8620	蘠 (<CJK Ideograph>)
18366	0x8629	蘩 (<CJK Ideograph>)
18367	0x861E	蘞 (<CJK Ideograph>)
18368	0x8625	蘥 (<CJK Ideograph>)
"#

/-- encoding_tables/whatwg/index-big5.txt:17184-17340 -/
noncomputable def index117 : List Text := lines! r#"18369	0x8829	蠩 (<CJK Ideograph>)
18370	0x881D	蠝 (<CJK Ideograph>)
18371	0x881B	蠛 (<CJK Ideograph>)
18372	0x8820	蠠 (<CJK Ideograph>)
18373	0x8824	蠤 (<CJK Ideograph>)
18374	0x881C	蠜 (<CJK Ideograph>)
18375	0x882B	蠫 (<CJK Ideograph>)
18376	0x884A	衊 (<CJK Ideograph>)
18377	0x896D	襭 (<CJK Ideograph>)
18378	0x8969	襩 (<CJK Ideograph>)
18379	0x896E	襮 (<CJK Ideograph>)
18380	0x896B	襫 (<CJK Ideograph>)
18381	0x89FA	觺 (<CJK Ideograph>)
18382	0x8B79	譹 (<CJK Ideograph>)
18383	0x8B78	譸 (<CJK Ideograph>)
18384	0x8B45	譅 (<CJK Ideograph>)
18385	0x8B7A	譺 (<CJK Ideograph>)
18386	0x8B7B	譻 (<CJK Ideograph>)
18387	0x8D10	贐 (<CJK Ideograph>)
18388	0x8D14	贔 (<CJK Ideograph>)
18389	0x8DAF	趯 (<CJK Ideograph>)
18390	0x8E8E	躎 (<CJK Ideograph>)
18391	0x8E8C	躌 (<CJK Ideograph>)
18392	0x8F5E	轞 (<CJK Ideograph>)
18393	0x8F5B	轛 (<CJK Ideograph>)
18394	0x8F5D	轝 (<CJK Ideograph>)
18395	0x9146	酆 (<CJK Ideograph>)
18396	0x9144	酄 (<CJK Ideograph>)
18397	0x9145	酅 (<CJK Ideograph>)
18398	0x91B9	醹 (<CJK Ideograph>)
18399	0x943F	鐿 (<CJK Ideograph>)
18400	0x943B	鐻 (<CJK Ideograph>)
18401	0x9436	鐶 (<CJK Ideograph>)
18402	0x9429	鐩 (<CJK Ideograph>)
18403	0x943D	鐽 (<CJK Ideograph>)
18404	0x943C	鐼 (<CJK Ideograph>)
18405	0x9430	鐰 (<CJK Ideograph>)
18406	0x9439	鐹 (<CJK Ideograph>)
18407	0x942A	鐪 (<CJK Ideograph>)
18408	0x9437	鐷 (<CJK Ideograph>)
18409	0x942C	鐬 (<CJK Ideograph>)
18410	0x9440	鑀 (<CJK Ideograph>)
18411	0x9431	鐱 (<CJK Ideograph>)
18412	0x95E5	闥 (<CJK Ideograph>)
18413	0x95E4	闤 (<CJK Ideograph>)
18414	0x95E3	闣 (<CJK Ideograph>)
18415	0x9735	霵 (<CJK Ideograph>)
18416	0x973A	霺 (<CJK Ideograph>)
18417	0x97BF	鞿 (<CJK Ideograph>)
18418	0x97E1	韡 (<CJK Ideograph>)
18419	0x9864	顤 (<CJK Ideograph>)
18420	0x98C9	飉 (<CJK Ideograph>)
18421	0x98C6	飆 (<CJK Ideograph>)
18422	0x98C0	飀 (<CJK Ideograph>)
18423	0x9958	饘 (<CJK Ideograph>)
18424	0x9956	饖 (<CJK Ideograph>)
18425	0x9A39	騹 (<CJK Ideograph>)
18426	0x9A3D	騽 (<CJK Ideograph>)
18427	0x9A46	驆 (<CJK Ideograph>)
18428	0x9A44	驄 (<CJK Ideograph>)
18429	0x9A42	驂 (<CJK Ideograph>)
18430	0x9A41	驁 (<CJK Ideograph>)
18431	0x9A3A	騺 (<CJK Ideograph>)
18432	0x9A3F	騿 (<CJK Ideograph>)
18433	0x9ACD	髍 (<CJK Ideograph>)
18434	0x9B15	鬕 (<CJK Ideograph>)
18435	0x9B17	鬗 (<CJK Ideograph>)
18436	0x9B18	鬘 (<CJK Ideograph>)
18437	0x9B16	鬖 (<CJK Ideograph>)
18438	0x9B3A	鬺 (<CJK Ideograph>)
18439	0x9B52	魒 (<CJK Ideograph>)
18440	0x9C2B	鰫 (<CJK Ideograph>)
18441	0x9C1D	鰝 (<CJK Ideograph>)
18442	0x9C1C	鰜 (<CJK Ideograph>)
18443	0x9C2C	鰬 (<CJK Ideograph>)
18444	0x9C23	鰣 (<CJK Ideograph>)
18445	0x9C28	鰨 (<CJK Ideograph>)
18446	0x9C29	鰩 (<CJK Ideograph>)
18447	0x9C24	鰤 (<CJK Ideograph>)
18448	0x9C21	鰡 (<CJK Ideograph>)
18449	0x9DB7	鶷 (<CJK Ideograph>)
18450	0x9DB6	鶶 (<CJK Ideograph>)
18451	0x9DBC	鶼 (<CJK Ideograph>)
18452	0x9DC1	鷁 (<CJK Ideograph>)
18453	0x9DC7	鷇 (<CJK Ideograph>)
18454	0x9DCA	鷊 (<CJK Ideograph>)
18455	0x9DCF	鷏 (<CJK Ideograph>)
18456	0x9DBE	鶾 (<CJK Ideograph>)
18457	0x9DC5	鷅 (<CJK Ideograph>)
18458	0x9DC3	鷃 (<CJK Ideograph>)
18459	0x9DBB	鶻 (<CJK Ideograph>)
18460	0x9DB5	鶵 (<CJK Ideograph>)
18461	0x9DCE	鷎 (<CJK Ideograph>)
18462	0x9DB9	鶹 (<CJK Ideograph>)
18463	0x9DBA	鶺 (<CJK Ideograph>)
18464	0x9DAC	鶬 (<CJK Ideograph>)
18465	0x9DC8	鷈 (<CJK Ideograph>)
18466	0x9DB1	鶱 (<CJK Ideograph>)
18467	0x9DAD	鶭 (<CJK Ideograph>)
18468	0x9DCC	鷌 (<CJK Ideograph>)
18469	0x9DB3	鶳 (<CJK Ideograph>)
18470	0x9DCD	鷍 (<CJK Ideograph>)
18471	0x9DB2	鶲 (<CJK Ideograph>)
18472	0x9E7A	鹺 (<CJK Ideograph>)
18473	0x9E9C	麜 (<CJK Ideograph>)
18474	0x9EEB	黫 (<CJK Ideograph>)
18475	0x9EEE	黮 (<CJK Ideograph>)
18476	0x9EED	黭 (<CJK Ideograph>)
18477	0x9F1B	鼛 (<CJK Ideograph>)
18478	0x9F18	鼘 (<CJK Ideograph>)
18479	0x9F1A	鼚 (<CJK Ideograph>)
18480	0x9F31	鼱 (<CJK Ideograph>)
18481	0x9F4E	齎 (<CJK Ideograph>)
18482	0x9F65	齥 (<CJK Ideograph>)
18483	0x9F64	齤 (<CJK Ideograph>)
18484	0x9F92	龒 (<CJK Ideograph>)
18485	0x4EB9	亹 (<CJK Ideograph>)
18486	0x56C6	囆 (<CJK Ideograph>)
18487	0x56C5	囅 (<CJK Ideograph>)
18488	0x56CB	囋 (<CJK Ideograph>)
18489	0x5971	奱 (<CJK Ideograph>)
18490	0x5B4B	孋 (<CJK Ideograph>)
18491	0x5B4C	孌 (<CJK Ideograph>)
18492	0x5DD5	巕 (<CJK Ideograph>)
18493	0x5DD1	巑 (<CJK Ideograph>)
18494	0x5EF2	廲 (<CJK Ideograph>)
18495	0x6521	攡 (<CJK Ideograph>)
18496	0x6520	攠 (<CJK Ideograph>)
18497	0x6526	攦 (<CJK Ideograph>)
18498	0x6522	攢 (<CJK Ideograph>)
18499	0x6B0B	欋 (<CJK Ideograph>)
18500	0x6B08	欈 (<CJK Ideograph>)
18501	0x6B09	欉 (<CJK Ideograph>)
18502	0x6C0D	氍 (<CJK Ideograph>)
18503	0x7055	灕 (<CJK Ideograph>)
18504	0x7056	灖 (<CJK Ideograph>)
18505	0x7057	灗 (<CJK Ideograph>)
18506	0x7052	灒 (<CJK Ideograph>)
18507	0x721E	爞 (<CJK Ideograph>)
18508	0x721F	爟 (<CJK Ideograph>)
18509	0x72A9	犩 (<CJK Ideograph>)
18510	0x737F	獿 (<CJK Ideograph>)
18511	0x74D8	瓘 (<CJK Ideograph>)
18512	0x74D5	瓕 (<CJK Ideograph>)
18513	0x74D9	瓙 (<CJK Ideograph>)
18514	0x74D7	瓗 (<CJK Ideograph>)
18515	0x766D	癭 (<CJK Ideograph>)
18516	0x76AD	皭 (<CJK Ideograph>)
18517	0x7935	礵 (<CJK Ideograph>)
18518	0x79B4	禴 (<CJK Ideograph>)
18519	0x7A70	穰 (<CJK Ideograph>)
18520	0x7A71	穱 (<CJK Ideograph>)
18521	0x7C57	籗 (<CJK Ideograph>)
18522	0x7C5C	籜 (<CJK Ideograph>)
18523	0x7C59	籙 (<CJK Ideograph>)
18524	0x7C5B	籛 (<CJK Ideograph>)
18525	0x7C5A	籚 (<CJK Ideograph>)
"#

/-- encoding_tables/whatwg/index-big5.txt:17341-17497 -/
noncomputable def index118 : List Text := lines! r#"18526	0x7CF4	糴 (<CJK Ideograph>)
18527	0x7CF1	糱 (<CJK Ideograph>)
18528	0x7E91	纑 (<CJK Ideograph>)
18529	0x7F4F	罏 (<CJK Ideograph>)
18530	0x7F87	羇 (<CJK Ideograph>)
18531	0x81DE	臞 (<CJK Ideograph>)
18532	0x826B	艫 (<CJK Ideograph>)
18533	0x8634	蘴 (<CJK Ideograph>)
18534	0x8635	蘵 (<CJK Ideograph>)
18535	0x8633	蘳 (<CJK Ideograph>)
18536	0x862C	蘬 (<CJK Ideograph>)
18537	0x8632	蘲 (<CJK Ideograph>)
18538	0x8636	蘶 (<CJK Ideograph>)
18539	0x882C	蠬 (<CJK Ideograph>)
18540	0x8828	蠨 (<CJK Ideograph>)
18541	0x8826	蠦 (<CJK Ideograph>)
18542	0x882A	蠪 (<CJK Ideograph>)
18543	0x8825	蠥 (<CJK Ideograph>)
18544	0x8971	襱 (<CJK Ideograph>)
18545	0x89BF	覿 (<CJK Ideograph>)
18546	0x89BE	覾 (<CJK Ideograph>)
18547	0x89FB	觻 (<CJK Ideograph>)
18548	0x8B7E	譾 (<CJK Ideograph>)
18549	0x8B84	讄 (<CJK Ideograph>)
18550	0x8B82	讂 (<CJK Ideograph>)
18551	0x8B86	讆 (<CJK Ideograph>)
18552	0x8B85	讅 (<CJK Ideograph>)
18553	0x8B7F	譿 (<CJK Ideograph>)
18554	0x8D15	贕 (<CJK Ideograph>)
18555	0x8E95	躕 (<CJK Ideograph>)
18556	0x8E94	躔 (<CJK Ideograph>)
18557	0x8E9A	躚 (<CJK Ideograph>)
18558	0x8E92	躒 (<CJK Ideograph>)
18559	0x8E90	躐 (<CJK Ideograph>)
18560	0x8E96	躖 (<CJK Ideograph>)
18561	0x8E97	躗 (<CJK Ideograph>)
18562	0x8F60	轠 (<CJK Ideograph>)
18563	0x8F62	轢 (<CJK Ideograph>)
18564	0x9147	酇 (<CJK Ideograph>)
18565	0x944C	鑌 (<CJK Ideograph>)
18566	0x9450	鑐 (<CJK Ideograph>)
18567	0x944A	鑊 (<CJK Ideograph>)
18568	0x944B	鑋 (<CJK Ideograph>)
18569	0x944F	鑏 (<CJK Ideograph>)
18570	0x9447	鑇 (<CJK Ideograph>)
18571	0x9445	鑅 (<CJK Ideograph>)
18572	0x9448	鑈 (<CJK Ideograph>)
18573	0x9449	鑉 (<CJK Ideograph>)
18574	0x9446	鑆 (<CJK Ideograph>)
18575	0x973F	霿 (<CJK Ideograph>)
18576	0x97E3	韣 (<CJK Ideograph>)
18577	0x986A	顪 (<CJK Ideograph>)
18578	0x9869	顩 (<CJK Ideograph>)
18579	0x98CB	飋 (<CJK Ideograph>)
18580	0x9954	饔 (<CJK Ideograph>)
18581	0x995B	饛 (<CJK Ideograph>)
18582	0x9A4E	驎 (<CJK Ideograph>)
18583	0x9A53	驓 (<CJK Ideograph>)
18584	0x9A54	驔 (<CJK Ideograph>)
18585	0x9A4C	驌 (<CJK Ideograph>)
18586	0x9A4F	驏 (<CJK Ideograph>)
18587	0x9A48	驈 (<CJK Ideograph>)
18588	0x9A4A	驊 (<CJK Ideograph>)
18589	0x9A49	驉 (<CJK Ideograph>)
18590	0x9A52	驒 (<CJK Ideograph>)
18591	0x9A50	驐 (<CJK Ideograph>)
18592	0x9AD0	髐 (<CJK Ideograph>)
18593	0x9B19	鬙 (<CJK Ideograph>)
18594	0x9B2B	鬫 (<CJK Ideograph>)
18595	0x9B3B	鬻 (<CJK Ideograph>)
18596	0x9B56	魖 (<CJK Ideograph>)
18597	0x9B55	魕 (<CJK Ideograph>)
18598	0x9C46	鱆 (<CJK Ideograph>)
18599	0x9C48	鱈 (<CJK Ideograph>)
18600	0x9C3F	鰿 (<CJK Ideograph>)
18601	0x9C44	鱄 (<CJK Ideograph>)
18602	0x9C39	鰹 (<CJK Ideograph>)
18603	0x9C33	鰳 (<CJK Ideograph>)
18604	0x9C41	鱁 (<CJK Ideograph>)
18605	0x9C3C	鰼 (<CJK Ideograph>)
18606	0x9C37	鰷 (<CJK Ideograph>)
18607	0x9C34	鰴 (<CJK Ideograph>)
18608	0x9C32	鰲 (<CJK Ideograph>)
18609	0x9C3D	鰽 (<CJK Ideograph>)
18610	0x9C36	鰶 (<CJK Ideograph>)
18611	0x9DDB	鷛 (<CJK Ideograph>)
18612	0x9DD2	鷒 (<CJK Ideograph>)
18613	0x9DDE	鷞 (<CJK Ideograph>)
18614	0x9DDA	鷚 (<CJK Ideograph>)
18615	0x9DCB	鷋 (<CJK Ideograph>)
18616	0x9DD0	鷐 (<CJK Ideograph>)
18617	0x9DDC	鷜 (<CJK Ideograph>)
18618	0x9DD1	鷑 (<CJK Ideograph>)
18619	0x9DDF	鷟 (<CJK Ideograph>)
18620	0x9DE9	鷩 (<CJK Ideograph>)
18621	0x9DD9	鷙 (<CJK Ideograph>)
18622	0x9DD8	鷘 (<CJK Ideograph>)
18623	0x9DD6	鷖 (<CJK Ideograph>)
18624	0x9DF5	鷵 (<CJK Ideograph>)
18625	0x9DD5	鷕 (<CJK Ideograph>)
18626	0x9DDD	鷝 (<CJK Ideograph>)
18627	0x9EB6	麶 (<CJK Ideograph>)
18628	0x9EF0	黰 (<CJK Ideograph>)
18629	0x9F35	鼵 (<CJK Ideograph>)
18630	0x9F33	鼳 (<CJK Ideograph>)
18631	0x9F32	鼲 (<CJK Ideograph>)
18632	0x9F42	齂 (<CJK Ideograph>)
18633	0x9F6B	齫 (<CJK Ideograph>)
18634	0x9F95	龕 (<CJK Ideograph>)
18635	0x9FA2	龢 (<CJK Ideograph>)
18636	0x513D	儽 (<CJK Ideograph>)
18637	0x5299	劙 (<CJK Ideograph>)
18638	0x58E8	壨 (<CJK Ideograph>)
18639	0x58E7	壧 (<CJK Ideograph>)
18640	0x5972	奲 (<CJK Ideograph>)
18641	0x5B4D	孍 (<CJK Ideograph>)
18642	0x5DD8	巘 (<CJK Ideograph>)
18643	0x882F	蠯 (<CJK Ideograph>)
18644	0x5F4F	彏 (<CJK Ideograph>)
18645	0x6201	戁 (<CJK Ideograph>)
18646	0x6203	戃 (<CJK Ideograph>)
18647	0x6204	戄 (<CJK Ideograph>)
18648	0x6529	攩 (<CJK Ideograph>)
18649	0x6525	攥 (<CJK Ideograph>)
18650	0x6596	斖 (<CJK Ideograph>)
18651	0x66EB	曫 (<CJK Ideograph>)
18652	0x6B11	欑 (<CJK Ideograph>)
18653	0x6B12	欒 (<CJK Ideograph>)
18654	0x6B0F	欏 (<CJK Ideograph>)
18655	0x6BCA	毊 (<CJK Ideograph>)
18656	0x705B	灛 (<CJK Ideograph>)
18657	0x705A	灚 (<CJK Ideograph>)
18658	0x7222	爢 (<CJK Ideograph>)
18659	0x7382	玂 (<CJK Ideograph>)
18660	0x7381	玁 (<CJK Ideograph>)
18661	0x7383	玃 (<CJK Ideograph>)
18662	0x7670	癰 (<CJK Ideograph>)
18663	0x77D4	矔 (<CJK Ideograph>)
18664	0x7C67	籧 (<CJK Ideograph>)
18665	0x7C66	籦 (<CJK Ideograph>)
18666	0x7E95	纕 (<CJK Ideograph>)
18667	0x826C	艬 (<CJK Ideograph>)
18668	0x863A	蘺 (<CJK Ideograph>)
18669	0x8640	虀 (<CJK Ideograph>)
18670	0x8639	蘹 (<CJK Ideograph>)
18671	0x863C	蘼 (<CJK Ideograph>)
18672	0x8631	蘱 (<CJK Ideograph>)
18673	0x863B	蘻 (<CJK Ideograph>)
18674	0x863E	蘾 (<CJK Ideograph>)
18675	0x8830	蠰 (<CJK Ideograph>)
18676	0x8832	蠲 (<CJK Ideograph>)
18677	0x882E	蠮 (<CJK Ideograph>)
18678	0x8833	蠳 (<CJK Ideograph>)
18679	0x8976	襶 (<CJK Ideograph>)
18680	0x8974	襴 (<CJK Ideograph>)
18681	0x8973	襳 (<CJK Ideograph>)
18682	0x89FE	觾 (<CJK Ideograph>)
"#

/-- encoding_tables/whatwg/index-big5.txt:17498-17654 -/
noncomputable def index119 : List Text := lines! r#"18683	0x8B8C	讌 (<CJK Ideograph>)
18684	0x8B8E	讎 (<CJK Ideograph>)
18685	0x8B8B	讋 (<CJK Ideograph>)
18686	0x8B88	讈 (<CJK Ideograph>)
18687	0x8C45	豅 (<CJK Ideograph>)
18688	0x8D19	贙 (<CJK Ideograph>)
18689	0x8E98	躘 (<CJK Ideograph>)
18690	0x8F64	轤 (<CJK Ideograph>)
18691	0x8F63	轣 (<CJK Ideograph>)
18692	0x91BC	醼 (<CJK Ideograph>)
18693	0x9462	鑢 (<CJK Ideograph>)
18694	0x9455	鑕 (<CJK Ideograph>)
18695	0x945D	鑝 (<CJK Ideograph>)
18696	0x9457	鑗 (<CJK Ideograph>)
18697	0x945E	鑞 (<CJK Ideograph>)
18698	0x97C4	韄 (<CJK Ideograph>)
18699	0x97C5	韅 (<CJK Ideograph>)
18700	0x9800	頀 (<CJK Ideograph>)
18701	0x9A56	驖 (<CJK Ideograph>)
18702	0x9A59	驙 (<CJK Ideograph>)
18703	0x9B1E	鬞 (<CJK Ideograph>)
18704	0x9B1F	鬟 (<CJK Ideograph>)
18705	0x9B20	鬠 (<CJK Ideograph>)
18706	0x9C52	鱒 (<CJK Ideograph>)
18707	0x9C58	鱘 (<CJK Ideograph>)
18708	0x9C50	鱐 (<CJK Ideograph>)
18709	0x9C4A	鱊 (<CJK Ideograph>)
18710	0x9C4D	鱍 (<CJK Ideograph>)
18711	0x9C4B	鱋 (<CJK Ideograph>)
18712	0x9C55	鱕 (<CJK Ideograph>)
18713	0x9C59	鱙 (<CJK Ideograph>)
18714	0x9C4C	鱌 (<CJK Ideograph>)
18715	0x9C4E	鱎 (<CJK Ideograph>)
18716	0x9DFB	鷻 (<CJK Ideograph>)
18717	0x9DF7	鷷 (<CJK Ideograph>)
18718	0x9DEF	鷯 (<CJK Ideograph>)
18719	0x9DE3	鷣 (<CJK Ideograph>)
18720	0x9DEB	鷫 (<CJK Ideograph>)
18721	0x9DF8	鷸 (<CJK Ideograph>)
18722	0x9DE4	鷤 (<CJK Ideograph>)
18723	0x9DF6	鷶 (<CJK Ideograph>)
18724	0x9DE1	鷡 (<CJK Ideograph>)
18725	0x9DEE	鷮 (<CJK Ideograph>)
18726	0x9DE6	鷦 (<CJK Ideograph>)
18727	0x9DF2	鷲 (<CJK Ideograph>)
18728	0x9DF0	鷰 (<CJK Ideograph>)
18729	0x9DE2	鷢 (<CJK Ideograph>)
18730	0x9DEC	鷬 (<CJK Ideograph>)
18731	0x9DF4	鷴 (<CJK Ideograph>)
18732	0x9DF3	鷳 (<CJK Ideograph>)
18733	0x9DE8	鷨 (<CJK Ideograph>)
18734	0x9DED	鷭 (<CJK Ideograph>)
18735	0x9EC2	黂 (<CJK Ideograph>)
18736	0x9ED0	黐 (<CJK Ideograph>)
18737	0x9EF2	黲 (<CJK Ideograph>)
18738	0x9EF3	黳 (<CJK Ideograph>)
18739	0x9F06	鼆 (<CJK Ideograph>)
18740	0x9F1C	鼜 (<CJK Ideograph>)
18741	0x9F38	鼸 (<CJK Ideograph>)
18742	0x9F37	鼷 (<CJK Ideograph>)
18743	0x9F36	鼶 (<CJK Ideograph>)
18744	0x9F43	齃 (<CJK Ideograph>)
18745	0x9F4F	齏 (<CJK Ideograph>)
18746	0x9F71	齱 (<CJK Ideograph>)
18747	0x9F70	齰 (<CJK Ideograph>)
18748	0x9F6E	齮 (<CJK Ideograph>)
18749	0x9F6F	齯 (<CJK Ideograph>)
18750	0x56D3	囓 (<CJK Ideograph>)
18751	0x56CD	囍 (<CJK Ideograph>)
18752	0x5B4E	孎 (<CJK Ideograph>)
18753	0x5C6D	屭 (<CJK Ideograph>)
18754	0x652D	攭 (<CJK Ideograph>)
18755	0x66ED	曭 (<CJK Ideograph>)
18756	0x66EE	曮 (<CJK Ideograph>)
18757	0x6B13	欓 (<CJK Ideograph>)
18758	0x705F	灟 (<CJK Ideograph>)
18759	0x7061	灡 (<CJK Ideograph>)
18760	0x705D	灝 (<CJK Ideograph>)
18761	0x7060	灠 (<CJK Ideograph>)
18762	0x7223	爣 (<CJK Ideograph>)
18763	0x74DB	瓛 (<CJK Ideograph>)
18764	0x74E5	瓥 (<CJK Ideograph>)
18765	0x77D5	矕 (<CJK Ideograph>)
18766	0x7938	礸 (<CJK Ideograph>)
18767	0x79B7	禷 (<CJK Ideograph>)
18768	0x79B6	禶 (<CJK Ideograph>)
18769	0x7C6A	籪 (<CJK Ideograph>)
18770	0x7E97	纗 (<CJK Ideograph>)
18771	0x7F89	羉 (<CJK Ideograph>)
18772	0x826D	艭 (<CJK Ideograph>)
18773	0x8643	虃 (<CJK Ideograph>)
18774	0x8838	蠸 (<CJK Ideograph>)
18775	0x8837	蠷 (<CJK Ideograph>)
18776	0x8835	蠵 (<CJK Ideograph>)
18777	0x884B	衋 (<CJK Ideograph>)
18778	0x8B94	讔 (<CJK Ideograph>)
18779	0x8B95	讕 (<CJK Ideograph>)
18780	0x8E9E	躞 (<CJK Ideograph>)
18781	0x8E9F	躟 (<CJK Ideograph>)
18782	0x8EA0	躠 (<CJK Ideograph>)
18783	0x8E9D	躝 (<CJK Ideograph>)
18784	0x91BE	醾 (<CJK Ideograph>)
18785	0x91BD	醽 (<CJK Ideograph>)
18786	0x91C2	釂 (<CJK Ideograph>)
18787	0x946B	鑫 (<CJK Ideograph>)
18788	0x9468	鑨 (<CJK Ideograph>)
18789	0x9469	鑩 (<CJK Ideograph>)
18790	0x96E5	雥 (<CJK Ideograph>)
18791	0x9746	靆 (<CJK Ideograph>)
18792	0x9743	靃 (<CJK Ideograph>)
18793	0x9747	靇 (<CJK Ideograph>)
18794	0x97C7	韇 (<CJK Ideograph>)
18795	0x97E5	韥 (<CJK Ideograph>)
18796	0x9A5E	驞 (<CJK Ideograph>)
18797	0x9AD5	髕 (<CJK Ideograph>)
18798	0x9B59	魙 (<CJK Ideograph>)
18799	0x9C63	鱣 (<CJK Ideograph>)
18800	0x9C67	鱧 (<CJK Ideograph>)
18801	0x9C66	鱦 (<CJK Ideograph>)
18802	0x9C62	鱢 (<CJK Ideograph>)
18803	0x9C5E	鱞 (<CJK Ideograph>)
18804	0x9C60	鱠 (<CJK Ideograph>)
18805	0x9E02	鸂 (<CJK Ideograph>)
18806	0x9DFE	鷾 (<CJK Ideograph>)
18807	0x9E07	鸇 (<CJK Ideograph>)
18808	0x9E03	鸃 (<CJK Ideograph>)
18809	0x9E06	鸆 (<CJK Ideograph>)
18810	0x9E05	鸅 (<CJK Ideograph>)
18811	0x9E00	鸀 (<CJK Ideograph>)
18812	0x9E01	鸁 (<CJK Ideograph>)
18813	0x9E09	鸉 (<CJK Ideograph>)
18814	0x9DFF	鷿 (<CJK Ideograph>)
18815	0x9DFD	鷽 (<CJK Ideograph>)
18816	0x9E04	鸄 (<CJK Ideograph>)
18817	0x9EA0	麠 (<CJK Ideograph>)
18818	0x9F1E	鼞 (<CJK Ideograph>)
18819	0x9F46	齆 (<CJK Ideograph>)
18820	0x9F74	齴 (<CJK Ideograph>)
18821	0x9F75	齵 (<CJK Ideograph>)
18822	0x9F76	齶 (<CJK Ideograph>)
18823	0x56D4	囔 (<CJK Ideograph>)
18824	0x652E	攮 (<CJK Ideograph>)
18825	0x65B8	斸 (<CJK Ideograph>)
18826	0x6B18	欘 (<CJK Ideograph>)
18827	0x6B19	欙 (<CJK Ideograph>)
18828	0x6B17	欗 (<CJK Ideograph>)
18829	0x6B1A	欚 (<CJK Ideograph>)
18830	0x7062	灢 (<CJK Ideograph>)
18831	0x7226	爦 (<CJK Ideograph>)
18832	0x72AA	犪 (<CJK Ideograph>)
18833	0x77D8	矘 (<CJK Ideograph>)
18834	0x77D9	矙 (<CJK Ideograph>)
18835	0x7939	礹 (<CJK Ideograph>)
18836	0x7C69	籩 (<CJK Ideograph>)
18837	0x7C6B	籫 (<CJK Ideograph>)
18838	0x7CF6	糶 (<CJK Ideograph>)
18839	0x7E9A	纚 (<CJK Ideograph>)
"#

/-- encoding_tables/whatwg/index-big5.txt:17655-17811 -/
noncomputable def index120 : List Text := lines! r#"18840	0x7E98	纘 (<CJK Ideograph>)
18841	0x7E9B	纛 (<CJK Ideograph>)
18842	0x7E99	纙 (<CJK Ideograph>)
18843	0x81E0	臠 (<CJK Ideograph>)
18844	0x81E1	臡 (<CJK Ideograph>)
18845	0x8646	虆 (<CJK Ideograph>)
18846	0x8647	虇 (<CJK Ideograph>)
18847	0x8648	虈 (<CJK Ideograph>)
18848	0x8979	襹 (<CJK Ideograph>)
18849	0x897A	襺 (<CJK Ideograph>)
18850	0x897C	襼 (<CJK Ideograph>)
18851	0x897B	襻 (<CJK Ideograph>)
18852	0x89FF	觿 (<CJK Ideograph>)
18853	0x8B98	讘 (<CJK Ideograph>)
18854	0x8B99	讙 (<CJK Ideograph>)
18855	0x8EA5	躥 (<CJK Ideograph>)
18856	0x8EA4	躤 (<CJK Ideograph>)
18857	0x8EA3	躣 (<CJK Ideograph>)
18858	0x946E	鑮 (<CJK Ideograph>)
18859	0x946D	鑭 (<CJK Ideograph>)
18860	0x946F	鑯 (<CJK Ideograph>)
18861	0x9471	鑱 (<CJK Ideograph>)
18862	0x9473	鑳 (<CJK Ideograph>)
18863	0x9749	靉 (<CJK Ideograph>)
18864	0x9872	顲 (<CJK Ideograph>)
18865	0x995F	饟 (<CJK Ideograph>)
18866	0x9C68	鱨 (<CJK Ideograph>)
18867	0x9C6E	鱮 (<CJK Ideograph>)
18868	0x9C6D	鱭 (<CJK Ideograph>)
18869	0x9E0B	鸋 (<CJK Ideograph>)
18870	0x9E0D	鸍 (<CJK Ideograph>)
18871	0x9E10	鸐 (<CJK Ideograph>)
18872	0x9E0F	鸏 (<CJK Ideograph>)
18873	0x9E12	鸒 (<CJK Ideograph>)
18874	0x9E11	鸑 (<CJK Ideograph>)
18875	0x9EA1	麡 (<CJK Ideograph>)
18876	0x9EF5	黵 (<CJK Ideograph>)
18877	0x9F09	鼉 (<CJK Ideograph>)
18878	0x9F47	齇 (<CJK Ideograph>)
18879	0x9F78	齸 (<CJK Ideograph>)
18880	0x9F7B	齻 (<CJK Ideograph>)
18881	0x9F7A	齺 (<CJK Ideograph>)
18882	0x9F79	齹 (<CJK Ideograph>)
18883	0x571E	圞 (<CJK Ideograph>)
18884	0x7066	灦 (<CJK Ideograph>)
18885	0x7C6F	籯 (<CJK Ideograph>)
18886	0x883C	蠼 (<CJK Ideograph>)
18887	0x8DB2	趲 (<CJK Ideograph>)
18888	0x8EA6	躦 (<CJK Ideograph>)
18889	0x91C3	釃 (<CJK Ideograph>)
18890	0x9474	鑴 (<CJK Ideograph>)
18891	0x9478	鑸 (<CJK Ideograph>)
18892	0x9476	鑶 (<CJK Ideograph>)
18893	0x9475	鑵 (<CJK Ideograph>)
18894	0x9A60	驠 (<CJK Ideograph>)
18895	0x9C74	鱴 (<CJK Ideograph>)
18896	0x9C73	鱳 (<CJK Ideograph>)
18897	0x9C71	鱱 (<CJK Ideograph>)
18898	0x9C75	鱵 (<CJK Ideograph>)
18899	0x9E14	鸔 (<CJK Ideograph>)
18900	0x9E13	鸓 (<CJK Ideograph>)
18901	0x9EF6	黶 (<CJK Ideograph>)
18902	0x9F0A	鼊 (<CJK Ideograph>)
18903	0x9FA4	龤 (<CJK Ideograph>)
18904	0x7068	灨 (<CJK Ideograph>)
18905	0x7065	灥 (<CJK Ideograph>)
18906	0x7CF7	糷 (<CJK Ideograph>)
18907	0x866A	虪 (<CJK Ideograph>)
18908	0x883E	蠾 (<CJK Ideograph>)
18909	0x883D	蠽 (<CJK Ideograph>)
18910	0x883F	蠿 (<CJK Ideograph>)
18911	0x8B9E	讞 (<CJK Ideograph>)
18912	0x8C9C	貜 (<CJK Ideograph>)
18913	0x8EA9	躩 (<CJK Ideograph>)
18914	0x8EC9	軉 (<CJK Ideograph>)
18915	0x974B	靋 (<CJK Ideograph>)
18916	0x9873	顳 (<CJK Ideograph>)
18917	0x9874	顴 (<CJK Ideograph>)
18918	0x98CC	飌 (<CJK Ideograph>)
18919	0x9961	饡 (<CJK Ideograph>)
18920	0x99AB	馫 (<CJK Ideograph>)
18921	0x9A64	驤 (<CJK Ideograph>)
18922	0x9A66	驦 (<CJK Ideograph>)
18923	0x9A67	驧 (<CJK Ideograph>)
18924	0x9B24	鬤 (<CJK Ideograph>)
18925	0x9E15	鸕 (<CJK Ideograph>)
18926	0x9E17	鸗 (<CJK Ideograph>)
18927	0x9F48	齈 (<CJK Ideograph>)
18928	0x6207	戇 (<CJK Ideograph>)
18929	0x6B1E	欞 (<CJK Ideograph>)
18930	0x7227	爧 (<CJK Ideograph>)
18931	0x864C	虌 (<CJK Ideograph>)
18932	0x8EA8	躨 (<CJK Ideograph>)
18933	0x9482	钂 (<CJK Ideograph>)
18934	0x9480	钀 (<CJK Ideograph>)
18935	0x9481	钁 (<CJK Ideograph>)
18936	0x9A69	驩 (<CJK Ideograph>)
18937	0x9A68	驨 (<CJK Ideograph>)
18938	0x9B2E	鬮 (<CJK Ideograph>)
18939	0x9E19	鸙 (<CJK Ideograph>)
18940	0x7229	爩 (<CJK Ideograph>)
18941	0x864B	虋 (<CJK Ideograph>)
18942	0x8B9F	讟 (<CJK Ideograph>)
18943	0x9483	钃 (<CJK Ideograph>)
18944	0x9C79	鱹 (<CJK Ideograph>)
18945	0x9EB7	麷 (<CJK Ideograph>)
18946	0x7675	癵 (<CJK Ideograph>)
18947	0x9A6B	驫 (<CJK Ideograph>)
18948	0x9C7A	鱺 (<CJK Ideograph>)
18949	0x9E1D	鸝 (<CJK Ideograph>)
18950	0x7069	灩 (<CJK Ideograph>)
18951	0x706A	灪 (<CJK Ideograph>)
18952	0x9EA4	麤 (<CJK Ideograph>)
18953	0x9F7E	齾 (<CJK Ideograph>)
18954	0x9F49	齉 (<CJK Ideograph>)
18955	0x9F98	龘 (<CJK Ideograph>)
18956	0x7881	碁 (<CJK Ideograph>)
18957	0x92B9	銹 (<CJK Ideograph>)
18958	0x88CF	裏 (<CJK Ideograph>)
18959	0x58BB	墻 (<CJK Ideograph>)
18960	0x6052	恒 (<CJK Ideograph>)
18961	0x7CA7	粧 (<CJK Ideograph>)
18962	0x5AFA	嫺 (<CJK Ideograph>)
18963	0x2554	╔ (BOX DRAWINGS DOUBLE DOWN AND RIGHT)
18964	0x2566	╦ (BOX DRAWINGS DOUBLE DOWN AND HORIZONTAL)
18965	0x2557	╗ (BOX DRAWINGS DOUBLE DOWN AND LEFT)
18966	0x2560	╠ (BOX DRAWINGS DOUBLE VERTICAL AND RIGHT)
18967	0x256C	╬ (BOX DRAWINGS DOUBLE VERTICAL AND HORIZONTAL)
18968	0x2563	╣ (BOX DRAWINGS DOUBLE VERTICAL AND LEFT)
18969	0x255A	╚ (BOX DRAWINGS DOUBLE UP AND RIGHT)
18970	0x2569	╩ (BOX DRAWINGS DOUBLE UP AND HORIZONTAL)
18971	0x255D	╝ (BOX DRAWINGS DOUBLE UP AND LEFT)
18972	0x2552	╒ (BOX DRAWINGS DOWN SINGLE AND RIGHT DOUBLE)
18973	0x2564	╤ (BOX DRAWINGS DOWN SINGLE AND HORIZONTAL DOUBLE)
18974	0x2555	╕ (BOX DRAWINGS DOWN SINGLE AND LEFT DOUBLE)
18975	0x255E	╞ (BOX DRAWINGS VERTICAL SINGLE AND RIGHT DOUBLE)
18976	0x256A	╪ (BOX DRAWINGS VERTICAL SINGLE AND HORIZONTAL DOUBLE)
18977	0x2561	╡ (BOX DRAWINGS VERTICAL SINGLE AND LEFT DOUBLE)
18978	0x2558	╘ (BOX DRAWINGS UP SINGLE AND RIGHT DOUBLE)
18979	0x2567	╧ (BOX DRAWINGS UP SINGLE AND HORIZONTAL DOUBLE)
18980	0x255B	╛ (BOX DRAWINGS UP SINGLE AND LEFT DOUBLE)
18981	0x2553	╓ (BOX DRAWINGS DOWN DOUBLE AND RIGHT SINGLE)
18982	0x2565	╥ (BOX DRAWINGS DOWN DOUBLE AND HORIZONTAL SINGLE)
18983	0x2556	╖ (BOX DRAWINGS DOWN DOUBLE AND LEFT SINGLE)
18984	0x255F	╟ (BOX DRAWINGS VERTICAL DOUBLE AND RIGHT SINGLE)
18985	0x256B	╫ (BOX DRAWINGS VERTICAL DOUBLE AND HORIZONTAL SINGLE)
18986	0x2562	╢ (BOX DRAWINGS VERTICAL DOUBLE AND LEFT SINGLE)
18987	0x2559	╙ (BOX DRAWINGS UP DOUBLE AND RIGHT SINGLE)
18988	0x2568	╨ (BOX DRAWINGS UP DOUBLE AND HORIZONTAL SINGLE)
18989	0x255C	╜ (BOX DRAWINGS UP DOUBLE AND LEFT SINGLE)
18990	0x2551	║ (BOX DRAWINGS DOUBLE VERTICAL)
18991	0x2550	═ (BOX DRAWINGS DOUBLE HORIZONTAL)
18992	0x256D	╭ (BOX DRAWINGS LIGHT ARC DOWN AND RIGHT)
18993	0x256E	╮ (BOX DRAWINGS LIGHT ARC DOWN AND LEFT)
18994	0x2570	╰ (BOX DRAWINGS LIGHT ARC UP AND RIGHT)
18995	0x256F	╯ (BOX DRAWINGS LIGHT ARC UP AND LEFT)
18996	0xFFED	￭ (HALFWIDTH BLACK SQUARE)
"#

/-- encoding_tables/whatwg/index-big5.txt:17812-17968 -/
noncomputable def index121 : List Text := lines! r#"18997	0x20547	𠕇 (<CJK Ideograph Extension B>)
18998	0x92DB	鋛 (<CJK Ideograph>)
18999	0x205DF	𠗟 (<CJK Ideograph Extension B>)
19000	0x23FC5	𣿅 (<CJK Ideograph Extension B>)
19001	0x854C	蕌 (<CJK Ideograph>)
19002	0x42B5	䊵 (<CJK Ideograph Extension A>)
19003	0x73EF	珯 (<CJK Ideograph>)
19004	0x51B5	况 (<CJK Ideograph>)
19005	0x3649	㙉 (<CJK Ideograph Extension A>)
19006	0x24942	𤥂 (<CJK Ideograph Extension B>)
19007	0x289E4	𨧤 (<CJK Ideograph Extension B>)
19008	0x9344	鍄 (<CJK Ideograph>)
19009	0x219DB	𡧛 (<CJK Ideograph Extension B>)
19010	0x82EE	苮 (<CJK Ideograph>)
19011	0x23CC8	𣳈 (<CJK Ideograph Extension B>)
19012	0x783C	砼 (<CJK Ideograph>)
19013	0x6744	杄 (<CJK Ideograph>)
19014	0x62DF	拟 (<CJK Ideograph>)
19015	0x24933	𤤳 (<CJK Ideograph Extension B>)
19016	0x289AA	𨦪 (<CJK Ideograph Extension B>)
19017	0x202A0	𠊠 (<CJK Ideograph Extension B>)
19018	0x26BB3	𦮳 (<CJK Ideograph Extension B>)
19019	0x21305	𡌅 (<CJK Ideograph Extension B>)
19020	0x4FAB	侫 (<CJK Ideograph>)
19021	0x224ED	𢓭 (<CJK Ideograph Extension B>)
19022	0x5008	倈 (<CJK Ideograph>)
19023	0x26D29	𦴩 (<CJK Ideograph Extension B>)
19024	0x27A84	𧪄 (<CJK Ideograph Extension B>)
19025	0x23600	𣘀 (<CJK Ideograph Extension B>)
19026	0x24AB1	𤪱 (<CJK Ideograph Extension B>)
19027	0x22513	𢔓 (<CJK Ideograph Extension B>)
19028	0x5029	倩 (<CJK Ideograph>)
19029	0x2037E	𠍾 (<CJK Ideograph Extension B>)
19030	0x5FA4	徤 (<CJK Ideograph>)
19031	0x20380	𠎀 (<CJK Ideograph Extension B>)
19032	0x20347	𠍇 (<CJK Ideograph Extension B>)
19033	0x6EDB	滛 (<CJK Ideograph>)
19034	0x2041F	𠐟 (<CJK Ideograph Extension B>)
19035	0x507D	偽 (<CJK Ideograph>)
19036	0x5101	儁 (<CJK Ideograph>)
19037	0x347A	㑺 (<CJK Ideograph Extension A>)
19038	0x510E	儎 (<CJK Ideograph>)
19039	0x986C	顬 (<CJK Ideograph>)
19040	0x3743	㝃 (<CJK Ideograph Extension A>)
19041	0x8416	萖 (<CJK Ideograph>)
19042	0x249A4	𤦤 (<CJK Ideograph Extension B>)
19043	0x20487	𠒇 (<CJK Ideograph Extension B>)
19044	0x5160	兠 (<CJK Ideograph>)
19045	0x233B4	𣎴 (<CJK Ideograph Extension B>)
19046	0x516A	兪 (<CJK Ideograph>)
19047	0x20BFF	𠯿 (<CJK Ideograph Extension B>)
19048	0x220FC	𢃼 (<CJK Ideograph Extension B>)
19049	0x202E5	𠋥 (<CJK Ideograph Extension B>)
19050	0x22530	𢔰 (<CJK Ideograph Extension B>)
19051	0x2058E	𠖎 (<CJK Ideograph Extension B>)
19052	0x23233	𣈳 (<CJK Ideograph Extension B>)
19053	0x21983	𡦃 (<CJK Ideograph Extension B>)
19054	0x5B82	宂 (<CJK Ideograph>)
19055	0x877D	蝽 (<CJK Ideograph>)
19056	0x205B3	𠖳 (<CJK Ideograph Extension B>)
19057	0x23C99	𣲙 (<CJK Ideograph Extension B>)
19058	0x51B2	冲 (<CJK Ideograph>)
19059	0x51B8	冸 (<CJK Ideograph>)
19060	0x9D34	鴴 (<CJK Ideograph>)
19061	0x51C9	凉 (<CJK Ideograph>)
19062	0x51CF	减 (<CJK Ideograph>)
19063	0x51D1	凑 (<CJK Ideograph>)
19064	0x3CDC	㳜 (<CJK Ideograph Extension A>)
19065	0x51D3	凓 (<CJK Ideograph>)
19066	0x24AA6	𤪦 (<CJK Ideograph Extension B>)
19067	0x51B3	决 (<CJK Ideograph>)
19068	0x51E2	凢 (<CJK Ideograph>)
19069	0x5342	卂 (<CJK Ideograph>)
19070	0x51ED	凭 (<CJK Ideograph>)
19071	0x83CD	菍 (<CJK Ideograph>)
19072	0x693E	椾 (<CJK Ideograph>)
19073	0x2372D	𣜭 (<CJK Ideograph Extension B>)
19074	0x5F7B	彻 (<CJK Ideograph>)
19075	0x520B	刋 (<CJK Ideograph>)
19076	0x5226	刦 (<CJK Ideograph>)
19077	0x523C	刼 (<CJK Ideograph>)
19078	0x52B5	劵 (<CJK Ideograph>)
19079	0x5257	剗 (<CJK Ideograph>)
19080	0x5294	劔 (<CJK Ideograph>)
19081	0x52B9	効 (<CJK Ideograph>)
19082	0x52C5	勅 (<CJK Ideograph>)
19083	0x7C15	簕 (<CJK Ideograph>)
19084	0x8542	蕂 (<CJK Ideograph>)
19085	0x52E0	勠 (<CJK Ideograph>)
19086	0x860D	蘍 (<CJK Ideograph>)
19087	0x26B13	𦬓 (<CJK Ideograph Extension B>)
19088	0x5305	包 (<CJK Ideograph>)
19089	0x28ADE	𨫞 (<CJK Ideograph Extension B>)
19090	0x5549	啉 (<CJK Ideograph>)
19091	0x6ED9	滙 (<CJK Ideograph>)
19092	0x23F80	𣾀 (<CJK Ideograph Extension B>)
19093	0x20954	𠥔 (<CJK Ideograph Extension B>)
19094	0x23FEC	𣿬 (<CJK Ideograph Extension B>)
19095	0x5333	匳 (<CJK Ideograph>)
19096	0x5344	卄 (<CJK Ideograph>)
19097	0x20BE2	𠯢 (<CJK Ideograph Extension B>)
19098	0x6CCB	泋 (<CJK Ideograph>)
19099	0x21726	𡜦 (<CJK Ideograph Extension B>)
19100	0x681B	栛 (<CJK Ideograph>)
19101	0x73D5	珕 (<CJK Ideograph>)
19102	0x604A	恊 (<CJK Ideograph>)
19103	0x3EAA	㺪 (<CJK Ideograph Extension A>)
19104	0x38CC	㣌 (<CJK Ideograph Extension A>)
19105	0x216E8	𡛨 (<CJK Ideograph Extension B>)
19106	0x71DD	燝 (<CJK Ideograph>)
19107	0x44A2	䒢 (<CJK Ideograph Extension A>)
19108	0x536D	卭 (<CJK Ideograph>)
19109	0x5374	却 (<CJK Ideograph>)
19110	0x286AB	𨚫 (<CJK Ideograph Extension B>)
19111	0x537E	卾 (<CJK Ideograph>)
19112	0x537F	卿 (<CJK Ideograph>)
19113	0x21596	𡖖 (<CJK Ideograph Extension B>)
19114	0x21613	𡘓 (<CJK Ideograph Extension B>)
19115	0x77E6	矦 (<CJK Ideograph>)
19116	0x5393	厓 (<CJK Ideograph>)
19117	0x28A9B	𨪛 (<CJK Ideograph Extension B>)
19118	0x53A0	厠 (<CJK Ideograph>)
19119	0x53AB	厫 (<CJK Ideograph>)
19120	0x53AE	厮 (<CJK Ideograph>)
19121	0x73A7	玧 (<CJK Ideograph>)
19122	0x25772	𥝲 (<CJK Ideograph Extension B>)
19123	0x3F59	㽙 (<CJK Ideograph Extension A>)
19124	0x739C	玜 (<CJK Ideograph>)
19125	0x53C1	叁 (<CJK Ideograph>)
19126	0x53C5	叅 (<CJK Ideograph>)
19127	0x6C49	汉 (<CJK Ideograph>)
19128	0x4E49	义 (<CJK Ideograph>)
19129	0x57FE	埾 (<CJK Ideograph>)
19130	0x53D9	叙 (<CJK Ideograph>)
19131	0x3AAB	㪫 (<CJK Ideograph Extension A>)
19132	0x20B8F	𠮏 (<CJK Ideograph Extension B>)
19133	0x53E0	叠 (<CJK Ideograph>)
19134	0x23FEB	𣿫 (<CJK Ideograph Extension B>)
19135	0x22DA3	𢶣 (<CJK Ideograph Extension B>)
19136	0x53F6	叶 (<CJK Ideograph>)
19137	0x20C77	𠱷 (<CJK Ideograph Extension B>)
19138	0x5413	吓 (<CJK Ideograph>)
19139	0x7079	灹 (<CJK Ideograph>)
19140	0x552B	唫 (<CJK Ideograph>)
19141	0x6657	晗 (<CJK Ideograph>)
19142	0x6D5B	浛 (<CJK Ideograph>)
19143	0x546D	呭 (<CJK Ideograph>)
19144	0x26B53	𦭓 (<CJK Ideograph Extension B>)
19145	0x20D74	𠵴 (<CJK Ideograph Extension B>)
19146	0x555D	啝 (<CJK Ideograph>)
19147	0x548F	咏 (<CJK Ideograph>)
19148	0x54A4	咤 (<CJK Ideograph>)
19149	0x47A6	䞦 (<CJK Ideograph Extension A>)
19150	0x2170D	𡜍 (<CJK Ideograph Extension B>)
19151	0x20EDD	𠻝 (<CJK Ideograph Extension B>)
19152	0x3DB4	㶴 (<CJK Ideograph Extension A>)
19153	0x20D4D	𠵍 (<CJK Ideograph Extension B>)
"#

/-- encoding_tables/whatwg/index-big5.txt:17969-18125 -/
noncomputable def index122 : List Text := lines! r#"19154	0x289BC	𨦼 (<CJK Ideograph Extension B>)
19155	0x22698	𢚘 (<CJK Ideograph Extension B>)
19156	0x5547	啇 (<CJK Ideograph>)
19157	0x4CED	䳭 (<CJK Ideograph Extension A>)
19158	0x542F	启 (<CJK Ideograph>)
19159	0x7417	琗 (<CJK Ideograph>)
19160	0x5586	喆 (<CJK Ideograph>)
19161	0x55A9	喩 (<CJK Ideograph>)
19162	0x5605	嘅 (<CJK Ideograph>)
19163	0x218D7	𡣗 (<CJK Ideograph Extension B>)
19164	0x2403A	𤀺 (<CJK Ideograph Extension B>)
19165	0x4552	䕒 (<CJK Ideograph Extension A>)
19166	0x24435	𤐵 (<CJK Ideograph Extension B>)
19167	0x66B3	暳 (<CJK Ideograph>)
19168	0x210B4	𡂴 (<CJK Ideograph Extension B>)
19169	0x5637	嘷 (<CJK Ideograph>)
19170	0x66CD	曍 (<CJK Ideograph>)
19171	0x2328A	𣊊 (<CJK Ideograph Extension B>)
19172	0x66A4	暤 (<CJK Ideograph>)
19173	0x66AD	暭 (<CJK Ideograph>)
19174	0x564D	噍 (<CJK Ideograph>)
19175	0x564F	噏 (<CJK Ideograph>)
19176	0x78F1	磱 (<CJK Ideograph>)
19177	0x56F1	囱 (<CJK Ideograph>)
19178	0x9787	鞇 (<CJK Ideograph>)
19179	0x53FE	叾 (<CJK Ideograph>)
19180	0x5700	圀 (<CJK Ideograph>)
19181	0x56EF	囯 (<CJK Ideograph>)
19182	0x56ED	园 (<CJK Ideograph>)
19183	0x28B66	𨭦 (<CJK Ideograph Extension B>)
19184	0x3623	㘣 (<CJK Ideograph Extension A>)
19185	0x2124F	𡉏 (<CJK Ideograph Extension B>)
19186	0x5746	坆 (<CJK Ideograph>)
19187	0x241A5	𤆥 (<CJK Ideograph Extension B>)
19188	0x6C6E	汮 (<CJK Ideograph>)
19189	0x708B	炋 (<CJK Ideograph>)
19190	0x5742	坂 (<CJK Ideograph>)
19191	0x36B1	㚱 (<CJK Ideograph Extension A>)
19192	0x26C7E	𦱾 (<CJK Ideograph Extension B>)
19193	0x57E6	埦 (<CJK Ideograph>)
19194	0x21416	𡐖 (<CJK Ideograph Extension B>)
19195	0x5803	堃 (<CJK Ideograph>)
19196	0x21454	𡑔 (<CJK Ideograph Extension B>)
19197	0x24363	𤍣 (<CJK Ideograph Extension B>)
19198	0x5826	堦 (<CJK Ideograph>)
19199	0x24BF5	𤯵 (<CJK Ideograph Extension B>)
19200	0x585C	塜 (<CJK Ideograph>)
19201	0x58AA	墪 (<CJK Ideograph>)
19202	0x3561	㕡 (<CJK Ideograph Extension A>)
19203	0x58E0	壠 (<CJK Ideograph>)
19204	0x58DC	壜 (<CJK Ideograph>)
19205	0x2123C	𡈼 (<CJK Ideograph Extension B>)
19206	0x58FB	壻 (<CJK Ideograph>)
19207	0x5BFF	寿 (<CJK Ideograph>)
19208	0x5743	坃 (<CJK Ideograph>)
19209	0x2A150	𪅐 (<CJK Ideograph Extension B>)
19210	0x24278	𤉸 (<CJK Ideograph Extension B>)
19211	0x93D3	鏓 (<CJK Ideograph>)
19212	0x35A1	㖡 (<CJK Ideograph Extension A>)
19213	0x591F	够 (<CJK Ideograph>)
19214	0x68A6	梦 (<CJK Ideograph>)
19215	0x36C3	㛃 (<CJK Ideograph Extension A>)
19216	0x6E59	湙 (<CJK Ideograph>)
19217	0x2163E	𡘾 (<CJK Ideograph Extension B>)
19218	0x5A24	娤 (<CJK Ideograph>)
19219	0x5553	啓 (<CJK Ideograph>)
19220	0x21692	𡚒 (<CJK Ideograph Extension B>)
19221	0x8505	蔅 (<CJK Ideograph>)
19222	0x59C9	姉 (<CJK Ideograph>)
19223	0x20D4E	𠵎 (<CJK Ideograph Extension B>)
19224	0x26C81	𦲁 (<CJK Ideograph Extension B>)
19225	0x26D2A	𦴪 (<CJK Ideograph Extension B>)
19226	0x217DC	𡟜 (<CJK Ideograph Extension B>)
19227	0x59D9	姙 (<CJK Ideograph>)
19228	0x217FB	𡟻 (<CJK Ideograph Extension B>)
19229	0x217B2	𡞲 (<CJK Ideograph Extension B>)
19230	0x26DA6	𦶦 (<CJK Ideograph Extension B>)
19231	0x6D71	浱 (<CJK Ideograph>)
19232	0x21828	𡠨 (<CJK Ideograph Extension B>)
19233	0x216D5	𡛕 (<CJK Ideograph Extension B>)
19234	0x59F9	姹 (<CJK Ideograph>)
19235	0x26E45	𦹅 (<CJK Ideograph Extension B>)
19236	0x5AAB	媫 (<CJK Ideograph>)
19237	0x5A63	婣 (<CJK Ideograph>)
19238	0x36E6	㛦 (<CJK Ideograph Extension A>)
19239	0x249A9	𤦩 (<CJK Ideograph Extension B>)
19240	0x5A77	婷 (<CJK Ideograph>)
19241	0x3708	㜈 (<CJK Ideograph Extension A>)
19242	0x5A96	媖 (<CJK Ideograph>)
19243	0x7465	瑥 (<CJK Ideograph>)
19244	0x5AD3	嫓 (<CJK Ideograph>)
19245	0x26FA1	𦾡 (<CJK Ideograph Extension B>)
19246	0x22554	𢕔 (<CJK Ideograph Extension B>)
19247	0x3D85	㶅 (<CJK Ideograph Extension A>)
19248	0x21911	𡤑 (<CJK Ideograph Extension B>)
19249	0x3732	㜲 (<CJK Ideograph Extension A>)
19250	0x216B8	𡚸 (<CJK Ideograph Extension B>)
19251	0x5E83	広 (<CJK Ideograph>)
19252	0x52D0	勐 (<CJK Ideograph>)
19253	0x5B76	孶 (<CJK Ideograph>)
19254	0x6588	斈 (<CJK Ideograph>)
19255	0x5B7C	孼 (<CJK Ideograph>)
19256	0x27A0E	𧨎 (<CJK Ideograph Extension B>)
19257	0x4004	䀄 (<CJK Ideograph Extension A>)
19258	0x485D	䡝 (<CJK Ideograph Extension A>)
19259	0x20204	𠈄 (<CJK Ideograph Extension B>)
19260	0x5BD5	寕 (<CJK Ideograph>)
19261	0x6160	慠 (<CJK Ideograph>)
19262	0x21A34	𡨴 (<CJK Ideograph Extension B>)
19263	0x259CC	𥧌 (<CJK Ideograph Extension B>)
19264	0x205A5	𠖥 (<CJK Ideograph Extension B>)
19265	0x5BF3	寳 (<CJK Ideograph>)
19266	0x5B9D	宝 (<CJK Ideograph>)
19267	0x4D10	䴐 (<CJK Ideograph Extension A>)
19268	0x5C05	尅 (<CJK Ideograph>)
19269	0x21B44	𡭄 (<CJK Ideograph Extension B>)
19270	0x5C13	尓 (<CJK Ideograph>)
19271	0x73CE	珎 (<CJK Ideograph>)
19272	0x5C14	尔 (<CJK Ideograph>)
19273	0x21CA5	𡲥 (<CJK Ideograph Extension B>)
19274	0x26B28	𦬨 (<CJK Ideograph Extension B>)
19275	0x5C49	屉 (<CJK Ideograph>)
19276	0x48DD	䣝 (<CJK Ideograph Extension A>)
19277	0x5C85	岅 (<CJK Ideograph>)
19278	0x5CE9	峩 (<CJK Ideograph>)
19279	0x5CEF	峯 (<CJK Ideograph>)
19280	0x5D8B	嶋 (<CJK Ideograph>)
19281	0x21DF9	𡷹 (<CJK Ideograph Extension B>)
19282	0x21E37	𡸷 (<CJK Ideograph Extension B>)
19283	0x5D10	崐 (<CJK Ideograph>)
19284	0x5D18	崘 (<CJK Ideograph>)
19285	0x5D46	嵆 (<CJK Ideograph>)
19286	0x21EA4	𡺤 (<CJK Ideograph Extension B>)
19287	0x5CBA	岺 (<CJK Ideograph>)
19288	0x5DD7	巗 (<CJK Ideograph>)
19289	0x82FC	苼 (<CJK Ideograph>)
19290	0x382D	㠭 (<CJK Ideograph Extension A>)
19291	0x24901	𤤁 (<CJK Ideograph Extension B>)
19292	0x22049	𢁉 (<CJK Ideograph Extension B>)
19293	0x22173	𢅳 (<CJK Ideograph Extension B>)
19294	0x8287	芇 (<CJK Ideograph>)
19295	0x3836	㠶 (<CJK Ideograph Extension A>)
19296	0x3BC2	㯂 (<CJK Ideograph Extension A>)
19297	0x5E2E	帮 (<CJK Ideograph>)
19298	0x6A8A	檊 (<CJK Ideograph>)
19299	0x5E75	幵 (<CJK Ideograph>)
19300	0x5E7A	幺 (<CJK Ideograph>)
19301	0x244BC	𤒼 (<CJK Ideograph Extension B>)
19302	0x20CD3	𠳓 (<CJK Ideograph Extension B>)
19303	0x53A6	厦 (<CJK Ideograph>)
19304	0x4EB7	亷 (<CJK Ideograph>)
19305	0x5ED0	廐 (<CJK Ideograph>)
19306	0x53A8	厨 (<CJK Ideograph>)
19307	0x21771	𡝱 (<CJK Ideograph Extension B>)
19308	0x5E09	帉 (<CJK Ideograph>)
19309	0x5EF4	廴 (<CJK Ideograph>)
19310	0x28482	𨒂 (<CJK Ideograph Extension B>)
"#

/-- encoding_tables/whatwg/index-big5.txt:18126-18282 -/
noncomputable def index123 : List Text := lines! r#"19311	0x5EF9	廹 (<CJK Ideograph>)
19312	0x5EFB	廻 (<CJK Ideograph>)
19313	0x38A0	㢠 (<CJK Ideograph Extension A>)
19314	0x5EFC	廼 (<CJK Ideograph>)
19315	0x683E	栾 (<CJK Ideograph>)
19316	0x941B	鐛 (<CJK Ideograph>)
19317	0x5F0D	弍 (<CJK Ideograph>)
19318	0x201C1	𠇁 (<CJK Ideograph Extension B>)
19319	0x2F894	弢 (CJK COMPATIBILITY IDEOGRAPH-2F894)
19320	0x3ADE	㫞 (<CJK Ideograph Extension A>)
19321	0x48AE	䢮 (<CJK Ideograph Extension A>)
19322	0x2133A	𡌺 (<CJK Ideograph Extension B>)
19323	0x5F3A	强 (<CJK Ideograph>)
19324	0x26888	𦢈 (<CJK Ideograph Extension B>)
19325	0x223D0	𢏐 (<CJK Ideograph Extension B>)
19326	0x5F58	彘 (<CJK Ideograph>)
19327	0x22471	𢑱 (<CJK Ideograph Extension B>)
19328	0x5F63	彣 (<CJK Ideograph>)
19329	0x97BD	鞽 (<CJK Ideograph>)
19330	0x26E6E	𦹮 (<CJK Ideograph Extension B>)
19331	0x5F72	彲 (<CJK Ideograph>)
19332	0x9340	鍀 (<CJK Ideograph>)
19333	0x28A36	𨨶 (<CJK Ideograph Extension B>)
19334	0x5FA7	徧 (<CJK Ideograph>)
19335	0x5DB6	嶶 (<CJK Ideograph>)
19336	0x3D5F	㵟 (<CJK Ideograph Extension A>)
19337	0x25250	𥉐 (<CJK Ideograph Extension B>)
19338	0x21F6A	𡽪 (<CJK Ideograph Extension B>)
19339	0x270F8	𧃸 (<CJK Ideograph Extension B>)
19340	0x22668	𢙨 (<CJK Ideograph Extension B>)
19341	0x91D6	釖 (<CJK Ideograph>)
19342	0x2029E	𠊞 (<CJK Ideograph Extension B>)
19343	0x28A29	𨨩 (<CJK Ideograph Extension B>)
19344	0x6031	怱 (<CJK Ideograph>)
19345	0x6685	暅 (<CJK Ideograph>)
19346	0x21877	𡡷 (<CJK Ideograph Extension B>)
19347	0x3963	㥣 (<CJK Ideograph Extension A>)
19348	0x3DC7	㷇 (<CJK Ideograph Extension A>)
19349	0x3639	㘹 (<CJK Ideograph Extension A>)
19350	0x5790	垐 (<CJK Ideograph>)
19351	0x227B4	𢞴 (<CJK Ideograph Extension B>)
19352	0x7971	祱 (<CJK Ideograph>)
19353	0x3E40	㹀 (<CJK Ideograph Extension A>)
19354	0x609E	悞 (<CJK Ideograph>)
19355	0x60A4	悤 (<CJK Ideograph>)
19356	0x60B3	悳 (<CJK Ideograph>)
19357	0x24982	𤦂 (<CJK Ideograph Extension B>)
19358	0x2498F	𤦏 (<CJK Ideograph Extension B>)
19359	0x27A53	𧩓 (<CJK Ideograph Extension B>)
19360	0x74A4	璤 (<CJK Ideograph>)
19361	0x50E1	僡 (<CJK Ideograph>)
19362	0x5AA0	媠 (<CJK Ideograph>)
19363	0x6164	慤 (<CJK Ideograph>)
19364	0x8424	萤 (<CJK Ideograph>)
19365	0x6142	慂 (<CJK Ideograph>)
19366	0x2F8A6	慈 (CJK COMPATIBILITY IDEOGRAPH-2F8A6)
19367	0x26ED2	𦻒 (<CJK Ideograph Extension B>)
19368	0x6181	憁 (<CJK Ideograph>)
19369	0x51F4	凴 (<CJK Ideograph>)
19370	0x20656	𠙖 (<CJK Ideograph Extension B>)
19371	0x6187	憇 (<CJK Ideograph>)
19372	0x5BAA	宪 (<CJK Ideograph>)
19373	0x23FB7	𣾷 (<CJK Ideograph Extension B>)
19374	0x2285F	𢡟 (<CJK Ideograph Extension B>)
19375	0x61D3	懓 (<CJK Ideograph>)
19376	0x28B9D	𨮝 (<CJK Ideograph Extension B>)
19377	0x2995D	𩥝 (<CJK Ideograph Extension B>)
19378	0x61D0	懐 (<CJK Ideograph>)
19379	0x3932	㤲 (<CJK Ideograph Extension A>)
19380	0x22980	𢦀 (<CJK Ideograph Extension B>)
19381	0x228C1	𢣁 (<CJK Ideograph Extension B>)
19382	0x6023	怣 (<CJK Ideograph>)
19383	0x615C	慜 (<CJK Ideograph>)
19384	0x651E	攞 (<CJK Ideograph>)
19385	0x638B	掋 (<CJK Ideograph>)
19386	0x20118	𠄘 (<CJK Ideograph Extension B>)
19387	0x62C5	担 (<CJK Ideograph>)
19388	0x21770	𡝰 (<CJK Ideograph Extension B>)
19389	0x62D5	拕 (<CJK Ideograph>)
19390	0x22E0D	𢸍 (<CJK Ideograph Extension B>)
19391	0x636C	捬 (<CJK Ideograph>)
19392	0x249DF	𤧟 (<CJK Ideograph Extension B>)
19393	0x3A17	㨗 (<CJK Ideograph Extension A>)
19394	0x6438	搸 (<CJK Ideograph>)
19395	0x63F8	揸 (<CJK Ideograph>)
19396	0x2138E	𡎎 (<CJK Ideograph Extension B>)
19397	0x217FC	𡟼 (<CJK Ideograph Extension B>)
19398	0x6490	撐 (<CJK Ideograph>)
19399	0x6F8A	澊 (<CJK Ideograph>)
19400	0x22E36	𢸶 (<CJK Ideograph Extension B>)
19401	0x9814	頔 (<CJK Ideograph>)
19402	0x2408C	𤂌 (<CJK Ideograph Extension B>)
19403	0x2571D	𥜝 (<CJK Ideograph Extension B>)
19404	0x64E1	擡 (<CJK Ideograph>)
19405	0x64E5	擥 (<CJK Ideograph>)
19406	0x947B	鑻 (<CJK Ideograph>)
19407	0x3A66	㩦 (<CJK Ideograph Extension A>)
19408	0x643A	携 (<CJK Ideograph>)
19409	0x3A57	㩗 (<CJK Ideograph Extension A>)
19410	0x654D	敍 (<CJK Ideograph>)
19411	0x6F16	漖 (<CJK Ideograph>)
19412	0x24A28	𤨨 (<CJK Ideograph Extension B>)
19413	0x24A23	𤨣 (<CJK Ideograph Extension B>)
19414	0x6585	斅 (<CJK Ideograph>)
19415	0x656D	敭 (<CJK Ideograph>)
19416	0x655F	敟 (<CJK Ideograph>)
19417	0x2307E	𣁾 (<CJK Ideograph Extension B>)
19418	0x65B5	斵 (<CJK Ideograph>)
19419	0x24940	𤥀 (<CJK Ideograph Extension B>)
19420	0x4B37	䬷 (<CJK Ideograph Extension A>)
19421	0x65D1	旑 (<CJK Ideograph>)
19422	0x40D8	䃘 (<CJK Ideograph Extension A>)
19423	0x21829	𡠩 (<CJK Ideograph Extension B>)
19424	0x65E0	无 (<CJK Ideograph>)
19425	0x65E3	旣 (<CJK Ideograph>)
19426	0x5FDF	忟 (<CJK Ideograph>)
19427	0x23400	𣐀 (<CJK Ideograph Extension B>)
19428	0x6618	昘 (<CJK Ideograph>)
19429	0x231F7	𣇷 (<CJK Ideograph Extension B>)
19430	0x231F8	𣇸 (<CJK Ideograph Extension B>)
19431	0x6644	晄 (<CJK Ideograph>)
19432	0x231A4	𣆤 (<CJK Ideograph Extension B>)
19433	0x231A5	𣆥 (<CJK Ideograph Extension B>)
19434	0x664B	晋 (<CJK Ideograph>)
19435	0x20E75	𠹵 (<CJK Ideograph Extension B>)
19436	0x6667	晧 (<CJK Ideograph>)
19437	0x251E6	𥇦 (<CJK Ideograph Extension B>)
19438	0x6673	晳 (<CJK Ideograph>)
19439	0x6674	晴 (<CJK Ideograph>)
19440	0x21E3D	𡸽 (<CJK Ideograph Extension B>)
19441	0x23231	𣈱 (<CJK Ideograph Extension B>)
19442	0x285F4	𨗴 (<CJK Ideograph Extension B>)
19443	0x231C8	𣇈 (<CJK Ideograph Extension B>)
19444	0x25313	𥌓 (<CJK Ideograph Extension B>)
19445	0x77C5	矅 (<CJK Ideograph>)
19446	0x228F7	𢣷 (<CJK Ideograph Extension B>)
19447	0x99A4	馤 (<CJK Ideograph>)
19448	0x6702	朂 (<CJK Ideograph>)
19449	0x2439C	𤎜 (<CJK Ideograph Extension B>)
19450	0x24A21	𤨡 (<CJK Ideograph Extension B>)
19451	0x3B2B	㬫 (<CJK Ideograph Extension A>)
19452	0x69FA	槺 (<CJK Ideograph>)
19453	0x237C2	𣟂 (<CJK Ideograph Extension B>)
19454	0x675E	杞 (<CJK Ideograph>)
19455	0x6767	杧 (<CJK Ideograph>)
19456	0x6762	杢 (<CJK Ideograph>)
19457	0x241CD	𤇍 (<CJK Ideograph Extension B>)
19458	0x290ED	𩃭 (<CJK Ideograph Extension B>)
19459	0x67D7	柗 (<CJK Ideograph>)
19460	0x44E9	䓩 (<CJK Ideograph Extension A>)
19461	0x6822	栢 (<CJK Ideograph>)
19462	0x6E50	湐 (<CJK Ideograph>)
19463	0x923C	鈼 (<CJK Ideograph>)
19464	0x6801	栁 (<CJK Ideograph>)
19465	0x233E6	𣏦 (<CJK Ideograph Extension B>)
19466	0x26DA0	𦶠 (<CJK Ideograph Extension B>)
19467	0x685D	桝 (<CJK Ideograph>)
"#

/-- encoding_tables/whatwg/index-big5.txt:18283-18439 -/
noncomputable def index124 : List Text := lines! r#"19468	0x2346F	𣑯 (<CJK Ideograph Extension B>)
19469	0x69E1	槡 (<CJK Ideograph>)
19470	0x6A0B	樋 (<CJK Ideograph>)
19471	0x28ADF	𨫟 (<CJK Ideograph Extension B>)
19472	0x6973	楳 (<CJK Ideograph>)
19473	0x68C3	棃 (<CJK Ideograph>)
19474	0x235CD	𣗍 (<CJK Ideograph Extension B>)
19475	0x6901	椁 (<CJK Ideograph>)
19476	0x6900	椀 (<CJK Ideograph>)
19477	0x3D32	㴲 (<CJK Ideograph Extension A>)
19478	0x3A01	㨁 (<CJK Ideograph Extension A>)
19479	0x2363C	𣘼 (<CJK Ideograph Extension B>)
19480	0x3B80	㮀 (<CJK Ideograph Extension A>)
19481	0x67AC	枬 (<CJK Ideograph>)
19482	0x6961	楡 (<CJK Ideograph>)
19483	0x28A4A	𨩊 (<CJK Ideograph Extension B>)
19484	0x42FC	䋼 (<CJK Ideograph Extension A>)
19485	0x6936	椶 (<CJK Ideograph>)
19486	0x6998	榘 (<CJK Ideograph>)
19487	0x3BA1	㮡 (<CJK Ideograph Extension A>)
19488	0x203C9	𠏉 (<CJK Ideograph Extension B>)
19489	0x8363	荣 (<CJK Ideograph>)
19490	0x5090	傐 (<CJK Ideograph>)
19491	0x69F9	槹 (<CJK Ideograph>)
19492	0x23659	𣙙 (<CJK Ideograph Extension B>)
19493	0x2212A	𢄪 (<CJK Ideograph Extension B>)
19494	0x6A45	橅 (<CJK Ideograph>)
19495	0x23703	𣜃 (<CJK Ideograph Extension B>)
19496	0x6A9D	檝 (<CJK Ideograph>)
19497	0x3BF3	㯳 (<CJK Ideograph Extension A>)
19498	0x67B1	枱 (<CJK Ideograph>)
19499	0x6AC8	櫈 (<CJK Ideograph>)
19500	0x2919C	𩆜 (<CJK Ideograph Extension B>)
19501	0x3C0D	㰍 (<CJK Ideograph Extension A>)
19502	0x6B1D	欝 (<CJK Ideograph>)
19503	0x20923	𠤣 (<CJK Ideograph Extension B>)
19504	0x60DE	惞 (<CJK Ideograph>)
19505	0x6B35	欵 (<CJK Ideograph>)
19506	0x6B74	歴 (<CJK Ideograph>)
19507	0x227CD	𢟍 (<CJK Ideograph Extension B>)
19508	0x6EB5	溵 (<CJK Ideograph>)
19509	0x23ADB	𣫛 (<CJK Ideograph Extension B>)
19510	0x203B5	𠎵 (<CJK Ideograph Extension B>)
19511	0x21958	𡥘 (<CJK Ideograph Extension B>)
19512	0x3740	㝀 (<CJK Ideograph Extension A>)
19513	0x5421	吡 (<CJK Ideograph>)
19514	0x23B5A	𣭚 (<CJK Ideograph Extension B>)
19515	0x6BE1	毡 (<CJK Ideograph>)
19516	0x23EFC	𣻼 (<CJK Ideograph Extension B>)
19517	0x6BDC	毜 (<CJK Ideograph>)
19518	0x6C37	氷 (<CJK Ideograph>)
19519	0x2248B	𢒋 (<CJK Ideograph Extension B>)
19520	0x248F1	𤣱 (<CJK Ideograph Extension B>)
19521	0x26B51	𦭑 (<CJK Ideograph Extension B>)
19522	0x6C5A	汚 (<CJK Ideograph>)
19523	0x8226	舦 (<CJK Ideograph>)
19524	0x6C79	汹 (<CJK Ideograph>)
19525	0x23DBC	𣶼 (<CJK Ideograph Extension B>)
19526	0x44C5	䓅 (<CJK Ideograph Extension A>)
19527	0x23DBD	𣶽 (<CJK Ideograph Extension B>)
19528	0x241A4	𤆤 (<CJK Ideograph Extension B>)
19529	0x2490C	𤤌 (<CJK Ideograph Extension B>)
19530	0x24900	𤤀 (<CJK Ideograph Extension B>)
19531	0x23CC9	𣳉 (<CJK Ideograph Extension B>)
19532	0x36E5	㛥 (<CJK Ideograph Extension A>)
19533	0x3CEB	㳫 (<CJK Ideograph Extension A>)
19534	0x20D32	𠴲 (<CJK Ideograph Extension B>)
19535	0x9B83	鮃 (<CJK Ideograph>)
19536	0x231F9	𣇹 (<CJK Ideograph Extension B>)
19537	0x22491	𢒑 (<CJK Ideograph Extension B>)
19538	0x7F8F	羏 (<CJK Ideograph>)
19539	0x6837	样 (<CJK Ideograph>)
19540	0x26D25	𦴥 (<CJK Ideograph Extension B>)
19541	0x26DA1	𦶡 (<CJK Ideograph Extension B>)
19542	0x26DEB	𦷫 (<CJK Ideograph Extension B>)
19543	0x6D96	涖 (<CJK Ideograph>)
19544	0x6D5C	浜 (<CJK Ideograph>)
19545	0x6E7C	湼 (<CJK Ideograph>)
19546	0x6F04	漄 (<CJK Ideograph>)
19547	0x2497F	𤥿 (<CJK Ideograph Extension B>)
19548	0x24085	𤂅 (<CJK Ideograph Extension B>)
19549	0x26E72	𦹲 (<CJK Ideograph Extension B>)
19550	0x8533	蔳 (<CJK Ideograph>)
19551	0x26F74	𦽴 (<CJK Ideograph Extension B>)
19552	0x51C7	凇 (<CJK Ideograph>)
19553	0x6C9C	沜 (<CJK Ideograph>)
19554	0x6E1D	渝 (<CJK Ideograph>)
19555	0x842E	萮 (<CJK Ideograph>)
19556	0x28B21	𨬡 (<CJK Ideograph Extension B>)
19557	0x6E2F	港 (<CJK Ideograph>)
19558	0x23E2F	𣸯 (<CJK Ideograph Extension B>)
19559	0x7453	瑓 (<CJK Ideograph>)
19560	0x23F82	𣾂 (<CJK Ideograph Extension B>)
19561	0x79CC	秌 (<CJK Ideograph>)
19562	0x6E4F	湏 (<CJK Ideograph>)
19563	0x5A91	媑 (<CJK Ideograph>)
19564	0x2304B	𣁋 (<CJK Ideograph Extension B>)
19565	0x6FF8	濸 (<CJK Ideograph>)
19566	0x370D	㜍 (<CJK Ideograph Extension A>)
19567	0x6F9D	澝 (<CJK Ideograph>)
19568	0x23E30	𣸰 (<CJK Ideograph Extension B>)
19569	0x6EFA	滺 (<CJK Ideograph>)
19570	0x21497	𡒗 (<CJK Ideograph Extension B>)
19571	0x2403D	𤀽 (<CJK Ideograph Extension B>)
19572	0x4555	䕕 (<CJK Ideograph Extension A>)
19573	0x93F0	鏰 (<CJK Ideograph>)
19574	0x6F44	潄 (<CJK Ideograph>)
19575	0x6F5C	潜 (<CJK Ideograph>)
19576	0x3D4E	㵎 (<CJK Ideograph Extension A>)
19577	0x6F74	潴 (<CJK Ideograph>)
19578	0x29170	𩅰 (<CJK Ideograph Extension B>)
19579	0x3D3B	㴻 (<CJK Ideograph Extension A>)
19580	0x6F9F	澟 (<CJK Ideograph>)
19581	0x24144	𤅄 (<CJK Ideograph Extension B>)
19582	0x6FD3	濓 (<CJK Ideograph>)
19583	0x24091	𤂑 (<CJK Ideograph Extension B>)
19584	0x24155	𤅕 (<CJK Ideograph Extension B>)
19585	0x24039	𤀹 (<CJK Ideograph Extension B>)
19586	0x23FF0	𣿰 (<CJK Ideograph Extension B>)
19587	0x23FB4	𣾴 (<CJK Ideograph Extension B>)
19588	0x2413F	𤄿 (<CJK Ideograph Extension B>)
19589	0x51DF	凟 (<CJK Ideograph>)
19590	0x24156	𤅖 (<CJK Ideograph Extension B>)
19591	0x24157	𤅗 (<CJK Ideograph Extension B>)
19592	0x24140	𤅀 (<CJK Ideograph Extension B>)
19593	0x261DD	𦇝 (<CJK Ideograph Extension B>)
19594	0x704B	灋 (<CJK Ideograph>)
19595	0x707E	灾 (<CJK Ideograph>)
19596	0x70A7	炧 (<CJK Ideograph>)
19597	0x7081	炁 (<CJK Ideograph>)
19598	0x70CC	烌 (<CJK Ideograph>)
19599	0x70D5	烕 (<CJK Ideograph>)
19600	0x70D6	烖 (<CJK Ideograph>)
19601	0x70DF	烟 (<CJK Ideograph>)
19602	0x4104	䄄 (<CJK Ideograph Extension A>)
19603	0x3DE8	㷨 (<CJK Ideograph Extension A>)
19604	0x71B4	熴 (<CJK Ideograph>)
19605	0x7196	熖 (<CJK Ideograph>)
19606	0x24277	𤉷 (<CJK Ideograph Extension B>)
19607	0x712B	焫 (<CJK Ideograph>)
19608	0x7145	煅 (<CJK Ideograph>)
19609	0x5A88	媈 (<CJK Ideograph>)
19610	0x714A	煊 (<CJK Ideograph>)
19611	0x716E	煮 (<CJK Ideograph>)
19612	0x5C9C	岜 (<CJK Ideograph>)
19613	0x24365	𤍥 (<CJK Ideograph Extension B>)
19614	0x714F	煏 (<CJK Ideograph>)
19615	0x9362	鍢 (<CJK Ideograph>)
19616	0x242C1	𤋁 (<CJK Ideograph Extension B>)
19617	0x712C	焬 (<CJK Ideograph>)
19618	0x2445A	𤑚 (<CJK Ideograph Extension B>)
19619	0x24A27	𤨧 (<CJK Ideograph Extension B>)
19620	0x24A22	𤨢 (<CJK Ideograph Extension B>)
19621	0x71BA	熺 (<CJK Ideograph>)
19622	0x28BE8	𨯨 (<CJK Ideograph Extension B>)
19623	0x70BD	炽 (<CJK Ideograph>)
19624	0x720E	爎 (<CJK Ideograph>)
"#

/-- encoding_tables/whatwg/index-big5.txt:18440-18596 -/
noncomputable def index125 : List Text := lines! r#"19625	0x9442	鑂 (<CJK Ideograph>)
19626	0x7215	爕 (<CJK Ideograph>)
19627	0x5911	夑 (<CJK Ideograph>)
19628	0x9443	鑃 (<CJK Ideograph>)
19629	0x7224	爤 (<CJK Ideograph>)
19630	0x9341	鍁 (<CJK Ideograph>)
19631	0x25605	𥘅 (<CJK Ideograph Extension B>)
19632	0x722E	爮 (<CJK Ideograph>)
19633	0x7240	牀 (<CJK Ideograph>)
19634	0x24974	𤥴 (<CJK Ideograph Extension B>)
19635	0x68BD	梽 (<CJK Ideograph>)
19636	0x7255	牕 (<CJK Ideograph>)
19637	0x7257	牗 (<CJK Ideograph>)
19638	0x3E55	㹕 (<CJK Ideograph Extension A>)
19639	0x23044	𣁄 (<CJK Ideograph Extension B>)
19640	0x680D	栍 (<CJK Ideograph>)
19641	0x6F3D	漽 (<CJK Ideograph>)
19642	0x7282	犂 (<CJK Ideograph>)
19643	0x732A	猪 (<CJK Ideograph>)
19644	0x732B	猫 (<CJK Ideograph>)
19645	0x24823	𤠣 (<CJK Ideograph Extension B>)
19646	0x2882B	𨠫 (<CJK Ideograph Extension B>)
19647	0x48ED	䣭 (<CJK Ideograph Extension A>)
19648	0x28804	𨠄 (<CJK Ideograph Extension B>)
19649	0x7328	猨 (<CJK Ideograph>)
19650	0x732E	献 (<CJK Ideograph>)
19651	0x73CF	珏 (<CJK Ideograph>)
19652	0x73AA	玪 (<CJK Ideograph>)
19653	0x20C3A	𠰺 (<CJK Ideograph Extension B>)
19654	0x26A2E	𦨮 (<CJK Ideograph Extension B>)
19655	0x73C9	珉 (<CJK Ideograph>)
19656	0x7449	瑉 (<CJK Ideograph>)
19657	0x241E2	𤇢 (<CJK Ideograph Extension B>)
19658	0x216E7	𡛧 (<CJK Ideograph Extension B>)
19659	0x24A24	𤨤 (<CJK Ideograph Extension B>)
19660	0x6623	昣 (<CJK Ideograph>)
19661	0x36C5	㛅 (<CJK Ideograph Extension A>)
19662	0x249B7	𤦷 (<CJK Ideograph Extension B>)
19663	0x2498D	𤦍 (<CJK Ideograph Extension B>)
19664	0x249FB	𤧻 (<CJK Ideograph Extension B>)
19665	0x73F7	珷 (<CJK Ideograph>)
19666	0x7415	琕 (<CJK Ideograph>)
19667	0x6903	椃 (<CJK Ideograph>)
19668	0x24A26	𤨦 (<CJK Ideograph Extension B>)
19669	0x7439	琹 (<CJK Ideograph>)
19670	0x205C3	𠗃 (<CJK Ideograph Extension B>)
19671	0x3ED7	㻗 (<CJK Ideograph Extension A>)
19672	0x745C	瑜 (<CJK Ideograph>)
19673	0x228AD	𢢭 (<CJK Ideograph Extension B>)
19674	0x7460	瑠 (<CJK Ideograph>)
19675	0x28EB2	𨺲 (<CJK Ideograph Extension B>)
19676	0x7447	瑇 (<CJK Ideograph>)
19677	0x73E4	珤 (<CJK Ideograph>)
19678	0x7476	瑶 (<CJK Ideograph>)
19679	0x83B9	莹 (<CJK Ideograph>)
19680	0x746C	瑬 (<CJK Ideograph>)
19681	0x3730	㜰 (<CJK Ideograph Extension A>)
19682	0x7474	瑴 (<CJK Ideograph>)
19683	0x93F1	鏱 (<CJK Ideograph>)
19684	0x6A2C	樬 (<CJK Ideograph>)
19685	0x7482	璂 (<CJK Ideograph>)
19686	0x4953	䥓 (<CJK Ideograph Extension A>)
19687	0x24A8C	𤪌 (<CJK Ideograph Extension B>)
19688	0x2415F	𤅟 (<CJK Ideograph Extension B>)
19689	0x24A79	𤩹 (<CJK Ideograph Extension B>)
19690	0x28B8F	𨮏 (<CJK Ideograph Extension B>)
19691	0x5B46	孆 (<CJK Ideograph>)
19692	0x28C03	𨰃 (<CJK Ideograph Extension B>)
19693	0x2189E	𡢞 (<CJK Ideograph Extension B>)
19694	0x74C8	瓈 (<CJK Ideograph>)
19695	0x21988	𡦈 (<CJK Ideograph Extension B>)
19696	0x750E	甎 (<CJK Ideograph>)
19697	0x74E9	瓩 (<CJK Ideograph>)
19698	0x751E	甞 (<CJK Ideograph>)
19699	0x28ED9	𨻙 (<CJK Ideograph Extension B>)
19700	0x21A4B	𡩋 (<CJK Ideograph Extension B>)
19701	0x5BD7	寗 (<CJK Ideograph>)
19702	0x28EAC	𨺬 (<CJK Ideograph Extension B>)
19703	0x9385	鎅 (<CJK Ideograph>)
19704	0x754D	畍 (<CJK Ideograph>)
19705	0x754A	畊 (<CJK Ideograph>)
19706	0x7567	畧 (<CJK Ideograph>)
19707	0x756E	畮 (<CJK Ideograph>)
19708	0x24F82	𤾂 (<CJK Ideograph Extension B>)
19709	0x3F04	㼄 (<CJK Ideograph Extension A>)
19710	0x24D13	𤴓 (<CJK Ideograph Extension B>)
19711	0x758E	疎 (<CJK Ideograph>)
19712	0x745D	瑝 (<CJK Ideograph>)
19713	0x759E	疞 (<CJK Ideograph>)
19714	0x75B4	疴 (<CJK Ideograph>)
19715	0x7602	瘂 (<CJK Ideograph>)
19716	0x762C	瘬 (<CJK Ideograph>)
19717	0x7651	癑 (<CJK Ideograph>)
19718	0x764F	癏 (<CJK Ideograph>)
19719	0x766F	癯 (<CJK Ideograph>)
19720	0x7676	癶 (<CJK Ideograph>)
19721	0x263F5	𦏵 (<CJK Ideograph Extension B>)
19722	0x7690	皐 (<CJK Ideograph>)
19723	0x81EF	臯 (<CJK Ideograph>)
19724	0x37F8	㟸 (<CJK Ideograph Extension A>)
19725	0x26911	𦤑 (<CJK Ideograph Extension B>)
19726	0x2690E	𦤎 (<CJK Ideograph Extension B>)
19727	0x76A1	皡 (<CJK Ideograph>)
19728	0x76A5	皥 (<CJK Ideograph>)
19729	0x76B7	皷 (<CJK Ideograph>)
19730	0x76CC	盌 (<CJK Ideograph>)
19731	0x26F9F	𦾟 (<CJK Ideograph Extension B>)
19732	0x8462	葢 (<CJK Ideograph>)
19733	0x2509D	𥂝 (<CJK Ideograph Extension B>)
19734	0x2517D	𥅽 (<CJK Ideograph Extension B>)
19735	0x21E1C	𡸜 (<CJK Ideograph Extension B>)
19736	0x771E	眞 (<CJK Ideograph>)
19737	0x7726	眦 (<CJK Ideograph>)
19738	0x7740	着 (<CJK Ideograph>)
19739	0x64AF	撯 (<CJK Ideograph>)
19740	0x25220	𥈠 (<CJK Ideograph Extension B>)
19741	0x7758	睘 (<CJK Ideograph>)
19742	0x232AC	𣊬 (<CJK Ideograph Extension B>)
19743	0x77AF	瞯 (<CJK Ideograph>)
19744	0x28964	𨥤 (<CJK Ideograph Extension B>)
19745	0x28968	𨥨 (<CJK Ideograph Extension B>)
19746	0x216C1	𡛁 (<CJK Ideograph Extension B>)
19747	0x77F4	矴 (<CJK Ideograph>)
19748	0x7809	砉 (<CJK Ideograph>)
19749	0x21376	𡍶 (<CJK Ideograph Extension B>)
19750	0x24A12	𤨒 (<CJK Ideograph Extension B>)
19751	0x68CA	棊 (<CJK Ideograph>)
19752	0x78AF	碯 (<CJK Ideograph>)
19753	0x78C7	磇 (<CJK Ideograph>)
19754	0x78D3	磓 (<CJK Ideograph>)
19755	0x96A5	隥 (<CJK Ideograph>)
19756	0x792E	礮 (<CJK Ideograph>)
19757	0x255E0	𥗠 (<CJK Ideograph Extension B>)
19758	0x78D7	磗 (<CJK Ideograph>)
19759	0x7934	礴 (<CJK Ideograph>)
19760	0x78B1	碱 (<CJK Ideograph>)
19761	0x2760C	𧘌 (<CJK Ideograph Extension B>)
19762	0x8FB8	辸 (<CJK Ideograph>)
19763	0x8884	袄 (<CJK Ideograph>)
19764	0x28B2B	𨬫 (<CJK Ideograph Extension B>)
19765	0x26083	𦂃 (<CJK Ideograph Extension B>)
19766	0x2261C	𢘜 (<CJK Ideograph Extension B>)
19767	0x7986	禆 (<CJK Ideograph>)
19768	0x8900	褀 (<CJK Ideograph>)
19769	0x6902	椂 (<CJK Ideograph>)
19770	0x7980	禀 (<CJK Ideograph>)
19771	0x25857	𥡗 (<CJK Ideograph Extension B>)
19772	0x799D	禝 (<CJK Ideograph>)
19773	0x27B39	𧬹 (<CJK Ideograph Extension B>)
19774	0x793C	礼 (<CJK Ideograph>)
19775	0x79A9	禩 (<CJK Ideograph>)
19776	0x6E2A	渪 (<CJK Ideograph>)
19777	0x27126	𧄦 (<CJK Ideograph Extension B>)
19778	0x3EA8	㺨 (<CJK Ideograph Extension A>)
19779	0x79C6	秆 (<CJK Ideograph>)
19780	0x2910D	𩄍 (<CJK Ideograph Extension B>)
19781	0x79D4	秔 (<CJK Ideograph>)
"#

end Verif.Files.Big5
