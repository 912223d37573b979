import Verif.Text

/-! Generated by tools/gen_files.py: verbatim copies of parts of files of /repo. -/

namespace Verif.Files.ShiftJis

/-- encoding_tables/whatwg/index-jis0208.txt:1-153 -/
noncomputable def index0 : List Text := lines! r#"# For details on index index-jis0208.txt see the Encoding Standard
# https://encoding.spec.whatwg.org/
#
# Identifier: cbaa91f3deb7d0841faf5c33041fc15a285da0e87e64ab802c4bf04b7c4da861
# Date: 2018-01-06

    0	0x3000	　 (IDEOGRAPHIC SPACE)
    1	0x3001	、 (IDEOGRAPHIC COMMA)
    2	0x3002	。 (IDEOGRAPHIC FULL STOP)
    3	0xFF0C	， (FULLWIDTH COMMA)
    4	0xFF0E	． (FULLWIDTH FULL STOP)
    5	0x30FB	・ (KATAKANA MIDDLE DOT)
    6	0xFF1A	： (FULLWIDTH COLON)
    7	0xFF1B	； (FULLWIDTH SEMICOLON)
    8	0xFF1F	？ (FULLWIDTH QUESTION MARK)
    9	0xFF01	！ (FULLWIDTH EXCLAMATION MARK)
   10	0x309B	゛ (KATAKANA-HIRAGANA VOICED SOUND MARK)
   11	0x309C	゜ (KATAKANA-HIRAGANA SEMI-VOICED SOUND MARK)
   12	0x00B4	´ (ACUTE ACCENT)
   13	0xFF40	｀ (FULLWIDTH GRAVE ACCENT)
   14	0x00A8	¨ (DIAERESIS)
   15	0xFF3E	＾ (FULLWIDTH CIRCUMFLEX ACCENT)
   16	0xFFE3	￣ (FULLWIDTH MACRON)
   17	0xFF3F	＿ (FULLWIDTH LOW LINE)
   18	0x30FD	ヽ (KATAKANA ITERATION MARK)
   19	0x30FE	ヾ (KATAKANA VOICED ITERATION MARK)
   20	0x309D	ゝ (HIRAGANA ITERATION MARK)
   21	0x309E	ゞ (HIRAGANA VOICED ITERATION MARK)
   22	0x3003	〃 (DITTO MARK)
   23	0x4EDD	仝 (<CJK Ideograph>)
   24	0x3005	々 (IDEOGRAPHIC ITERATION MARK)
   25	0x3006	〆 (IDEOGRAPHIC CLOSING MARK)
   26	0x3007	〇 (IDEOGRAPHIC NUMBER ZERO)
   27	0x30FC	ー (KATAKANA-HIRAGANA PROLONGED SOUND MARK)
   28	0x2015	― (HORIZONTAL BAR)
   29	0x2010	‐ (HYPHEN)
   30	0xFF0F	／ (FULLWIDTH SOLIDUS)
   31	0xFF3C	＼ (FULLWIDTH REVERSE SOLIDUS)
   32	0xFF5E	～ (FULLWIDTH TILDE)
   33	0x2225	∥ (PARALLEL TO)
   34	0xFF5C	｜ (FULLWIDTH VERTICAL LINE)
   35	0x2026	… (HORIZONTAL ELLIPSIS)
   36	0x2025	‥ (TWO DOT LEADER)
   37	0x2018	‘ (LEFT SINGLE QUOTATION MARK)
   38	0x2019	’ (RIGHT SINGLE QUOTATION MARK)
   39	0x201C	“ (LEFT DOUBLE QUOTATION MARK)
   40	0x201D	” (RIGHT DOUBLE QUOTATION MARK)
   41	0xFF08	（ (FULLWIDTH LEFT PARENTHESIS)
   42	0xFF09	） (FULLWIDTH RIGHT PARENTHESIS)
   43	0x3014	〔 (LEFT TORTOISE SHELL BRACKET)
   44	0x3015	〕 (RIGHT TORTOISE SHELL BRACKET)
   45	0xFF3B	［ (FULLWIDTH LEFT SQUARE BRACKET)
   46	0xFF3D	］ (FULLWIDTH RIGHT SQUARE BRACKET)
   47	0xFF5B	｛ (FULLWIDTH LEFT CURLY BRACKET)
   48	0xFF5D	｝ (FULLWIDTH RIGHT CURLY BRACKET)
   49	0x3008	〈 (LEFT ANGLE BRACKET)
   50	0x3009	〉 (RIGHT ANGLE BRACKET)
   51	0x300A	《 (LEFT DOUBLE ANGLE BRACKET)
   52	0x300B	》 (RIGHT DOUBLE ANGLE BRACKET)
   53	0x300C	「 (LEFT CORNER BRACKET)
   54	0x300D	」 (RIGHT CORNER BRACKET)
   55	0x300E	『 (LEFT WHITE CORNER BRACKET)
   56	0x300F	』 (RIGHT WHITE CORNER BRACKET)
   57	0x3010	【 (LEFT BLACK LENTICULAR BRACKET)
   58	0x3011	】 (RIGHT BLACK LENTICULAR BRACKET)
   59	0xFF0B	＋ (FULLWIDTH PLUS SIGN)
   60	0xFF0D	－ (FULLWIDTH HYPHEN-MINUS)
   61	0x00B1	± (PLUS-MINUS SIGN)
   62	0x00D7	× (MULTIPLICATION SIGN)
   63	0x00F7	÷ (DIVISION SIGN)
   64	0xFF1D	＝ (FULLWIDTH EQUALS SIGN)
   65	0x2260	≠ (NOT EQUAL TO)
   66	0xFF1C	＜ (FULLWIDTH LESS-THAN SIGN)
   67	0xFF1E	＞ (FULLWIDTH GREATER-THAN SIGN)
   68	0x2266	≦ (LESS-THAN OVER EQUAL TO)
   69	0x2267	≧ (GREATER-THAN OVER EQUAL TO)
   70	0x221E	∞ (INFINITY)
   71	0x2234	∴ (THEREFORE)
   72	0x2642	♂ (MALE SIGN)
   73	0x2640	♀ (FEMALE SIGN)
   74	0x00B0	° (DEGREE SIGN)
   75	0x2032	′ (PRIME)
   76	0x2033	″ (DOUBLE PRIME)
   77	0x2103	℃ (DEGREE CELSIUS)
   78	0xFFE5	￥ (FULLWIDTH YEN SIGN)
   79	0xFF04	＄ (FULLWIDTH DOLLAR SIGN)
   80	0xFFE0	￠ (FULLWIDTH CENT SIGN)
   81	0xFFE1	￡ (FULLWIDTH POUND SIGN)
   82	0xFF05	％ (FULLWIDTH PERCENT SIGN)
   83	0xFF03	＃ (FULLWIDTH NUMBER SIGN)
   84	0xFF06	＆ (FULLWIDTH AMPERSAND)
   85	0xFF0A	＊ (FULLWIDTH ASTERISK)
   86	0xFF20	＠ (FULLWIDTH COMMERCIAL AT)
   87	0x00A7	§ (SECTION SIGN)
   88	0x2606	☆ (WHITE STAR)
   89	0x2605	★ (BLACK STAR)
   90	0x25CB	○ (WHITE CIRCLE)
   91	0x25CF	● (BLACK CIRCLE)
   92	0x25CE	◎ (BULLSEYE)
   93	0x25C7	◇ (WHITE DIAMOND)
   94	0x25C6	◆ (BLACK DIAMOND)
   95	0x25A1	□ (WHITE SQUARE)
   96	0x25A0	■ (BLACK SQUARE)
   97	0x25B3	△ (WHITE UP-POINTING TRIANGLE)
   98	0x25B2	▲ (BLACK UP-POINTING TRIANGLE)
   99	0x25BD	▽ (WHITE DOWN-POINTING TRIANGLE)
  100	0x25BC	▼ (BLACK DOWN-POINTING TRIANGLE)
  101	0x203B	※ (REFERENCE MARK)
  102	0x3012	〒 (POSTAL MARK)
  103	0x2192	→ (RIGHTWARDS ARROW)
  104	0x2190	← (LEFTWARDS ARROW)
  105	0x2191	↑ (UPWARDS ARROW)
  106	0x2193	↓ (DOWNWARDS ARROW)
  107	0x3013	〓 (GETA MARK)
  119	0x2208	∈ (ELEMENT OF)
  120	0x220B	∋ (CONTAINS AS MEMBER)
  121	0x2286	⊆ (SUBSET OF OR EQUAL TO)
  122	0x2287	⊇ (SUPERSET OF OR EQUAL TO)
  123	0x2282	⊂ (SUBSET OF)
  124	0x2283	⊃ (SUPERSET OF)
  125	0x222A	∪ (UNION)
  126	0x2229	∩ (INTERSECTION)
  135	0x2227	∧ (LOGICAL AND)
  136	0x2228	∨ (LOGICAL OR)
  137	0xFFE2	￢ (FULLWIDTH NOT SIGN)
  138	0x21D2	⇒ (RIGHTWARDS DOUBLE ARROW)
  139	0x21D4	⇔ (LEFT RIGHT DOUBLE ARROW)
  140	0x2200	∀ (FOR ALL)
  141	0x2203	∃ (THERE EXISTS)
  153	0x2220	∠ (ANGLE)
  154	0x22A5	⊥ (UP TACK)
  155	0x2312	⌒ (ARC)
  156	0x2202	∂ (PARTIAL DIFFERENTIAL)
  157	0x2207	∇ (NABLA)
  158	0x2261	≡ (IDENTICAL TO)
  159	0x2252	≒ (APPROXIMATELY EQUAL TO OR THE IMAGE OF)
  160	0x226A	≪ (MUCH LESS-THAN)
  161	0x226B	≫ (MUCH GREATER-THAN)
  162	0x221A	√ (SQUARE ROOT)
  163	0x223D	∽ (REVERSED TILDE)
  164	0x221D	∝ (PROPORTIONAL TO)
  165	0x2235	∵ (BECAUSE)
  166	0x222B	∫ (INTEGRAL)
  167	0x222C	∬ (DOUBLE INTEGRAL)
  175	0x212B	Å (ANGSTROM SIGN)
  176	0x2030	‰ (PER MILLE SIGN)
  177	0x266F	♯ (MUSIC SHARP SIGN)
  178	0x266D	♭ (MUSIC FLAT SIGN)
  179	0x266A	♪ (EIGHTH NOTE)
  180	0x2020	† (DAGGER)
  181	0x2021	‡ (DOUBLE DAGGER)
  182	0x00B6	¶ (PILCROW SIGN)
  187	0x25EF	◯ (LARGE CIRCLE)
"#

/-- encoding_tables/whatwg/index-jis0208.txt:154-298 -/
noncomputable def index1 : List Text := lines! r#"  203	0xFF10	０ (FULLWIDTH DIGIT ZERO)
  204	0xFF11	１ (FULLWIDTH DIGIT ONE)
  205	0xFF12	２ (FULLWIDTH DIGIT TWO)
  206	0xFF13	３ (FULLWIDTH DIGIT THREE)
  207	0xFF14	４ (FULLWIDTH DIGIT FOUR)
  208	0xFF15	５ (FULLWIDTH DIGIT FIVE)
  209	0xFF16	６ (FULLWIDTH DIGIT SIX)
  210	0xFF17	７ (FULLWIDTH DIGIT SEVEN)
  211	0xFF18	８ (FULLWIDTH DIGIT EIGHT)
  212	0xFF19	９ (FULLWIDTH DIGIT NINE)
  220	0xFF21	Ａ (FULLWIDTH LATIN CAPITAL LETTER A)
  221	0xFF22	Ｂ (FULLWIDTH LATIN CAPITAL LETTER B)
  222	0xFF23	Ｃ (FULLWIDTH LATIN CAPITAL LETTER C)
  223	0xFF24	Ｄ (FULLWIDTH LATIN CAPITAL LETTER D)
  224	0xFF25	Ｅ (FULLWIDTH LATIN CAPITAL LETTER E)
  225	0xFF26	Ｆ (FULLWIDTH LATIN CAPITAL LETTER F)
  226	0xFF27	Ｇ (FULLWIDTH LATIN CAPITAL LETTER G)
  227	0xFF28	Ｈ (FULLWIDTH LATIN CAPITAL LETTER H)
  228	0xFF29	Ｉ (FULLWIDTH LATIN CAPITAL LETTER I)
  229	0xFF2A	Ｊ (FULLWIDTH LATIN CAPITAL LETTER J)
  230	0xFF2B	Ｋ (FULLWIDTH LATIN CAPITAL LETTER K)
  231	0xFF2C	Ｌ (FULLWIDTH LATIN CAPITAL LETTER L)
  232	0xFF2D	Ｍ (FULLWIDTH LATIN CAPITAL LETTER M)
  233	0xFF2E	Ｎ (FULLWIDTH LATIN CAPITAL LETTER N)
  234	0xFF2F	Ｏ (FULLWIDTH LATIN CAPITAL LETTER O)
  235	0xFF30	Ｐ (FULLWIDTH LATIN CAPITAL LETTER P)
  236	0xFF31	Ｑ (FULLWIDTH LATIN CAPITAL LETTER Q)
  237	0xFF32	Ｒ (FULLWIDTH LATIN CAPITAL LETTER R)
  238	0xFF33	Ｓ (FULLWIDTH LATIN CAPITAL LETTER S)
  239	0xFF34	Ｔ (FULLWIDTH LATIN CAPITAL LETTER T)
  240	0xFF35	Ｕ (FULLWIDTH LATIN CAPITAL LETTER U)
  241	0xFF36	Ｖ (FULLWIDTH LATIN CAPITAL LETTER V)
  242	0xFF37	Ｗ (FULLWIDTH LATIN CAPITAL LETTER W)
  243	0xFF38	Ｘ (FULLWIDTH LATIN CAPITAL LETTER X)
  244	0xFF39	Ｙ (FULLWIDTH LATIN CAPITAL LETTER Y)
  245	0xFF3A	Ｚ (FULLWIDTH LATIN CAPITAL LETTER Z)
  252	0xFF41	ａ (FULLWIDTH LATIN SMALL LETTER A)
  253	0xFF42	ｂ (FULLWIDTH LATIN SMALL LETTER B)
  254	0xFF43	ｃ (FULLWIDTH LATIN SMALL LETTER C)
  255	0xFF44	ｄ (FULLWIDTH LATIN SMALL LETTER D)
  256	0xFF45	ｅ (FULLWIDTH LATIN SMALL LETTER E)
  257	0xFF46	ｆ (FULLWIDTH LATIN SMALL LETTER F)
  258	0xFF47	ｇ (FULLWIDTH LATIN SMALL LETTER G)
  259	0xFF48	ｈ (FULLWIDTH LATIN SMALL LETTER H)
  260	0xFF49	ｉ (FULLWIDTH LATIN SMALL LETTER I)
  261	0xFF4A	ｊ (FULLWIDTH LATIN SMALL LETTER J)
  262	0xFF4B	ｋ (FULLWIDTH LATIN SMALL LETTER K)
  263	0xFF4C	ｌ (FULLWIDTH LATIN SMALL LETTER L)
  264	0xFF4D	ｍ (FULLWIDTH LATIN SMALL LETTER M)
  265	0xFF4E	ｎ (FULLWIDTH LATIN SMALL LETTER N)
  266	0xFF4F	ｏ (FULLWIDTH LATIN SMALL LETTER O)
  267	0xFF50	ｐ (FULLWIDTH LATIN SMALL LETTER P)
  268	0xFF51	ｑ (FULLWIDTH LATIN SMALL LETTER Q)
  269	0xFF52	ｒ (FULLWIDTH LATIN SMALL LETTER R)
  270	0xFF53	ｓ (FULLWIDTH LATIN SMALL LETTER S)
  271	0xFF54	ｔ (FULLWIDTH LATIN SMALL LETTER T)
  272	0xFF55	ｕ (FULLWIDTH LATIN SMALL LETTER U)
  273	0xFF56	ｖ (FULLWIDTH LATIN SMALL LETTER V)
  274	0xFF57	ｗ (FULLWIDTH LATIN SMALL LETTER W)
  275	0xFF58	ｘ (FULLWIDTH LATIN SMALL LETTER X)
  276	0xFF59	ｙ (FULLWIDTH LATIN SMALL LETTER Y)
  277	0xFF5A	ｚ (FULLWIDTH LATIN SMALL LETTER Z)
  282	0x3041	ぁ (HIRAGANA LETTER SMALL A)
  283	0x3042	あ (HIRAGANA LETTER A)
  284	0x3043	ぃ (HIRAGANA LETTER SMALL I)
  285	0x3044	い (HIRAGANA LETTER I)
  286	0x3045	ぅ (HIRAGANA LETTER SMALL U)
  287	0x3046	う (HIRAGANA LETTER U)
  288	0x3047	ぇ (HIRAGANA LETTER SMALL E)
  289	0x3048	え (HIRAGANA LETTER E)
  290	0x3049	ぉ (HIRAGANA LETTER SMALL O)
  291	0x304A	お (HIRAGANA LETTER O)
  292	0x304B	か (HIRAGANA LETTER KA)
  293	0x304C	が (HIRAGANA LETTER GA)
  294	0x304D	き (HIRAGANA LETTER KI)
  295	0x304E	ぎ (HIRAGANA LETTER GI)
  296	0x304F	く (HIRAGANA LETTER KU)
  297	0x3050	ぐ (HIRAGANA LETTER GU)
  298	0x3051	け (HIRAGANA LETTER KE)
  299	0x3052	げ (HIRAGANA LETTER GE)
  300	0x3053	こ (HIRAGANA LETTER KO)
  301	0x3054	ご (HIRAGANA LETTER GO)
  302	0x3055	さ (HIRAGANA LETTER SA)
  303	0x3056	ざ (HIRAGANA LETTER ZA)
  304	0x3057	し (HIRAGANA LETTER SI)
  305	0x3058	じ (HIRAGANA LETTER ZI)
  306	0x3059	す (HIRAGANA LETTER SU)
  307	0x305A	ず (HIRAGANA LETTER ZU)
  308	0x305B	せ (HIRAGANA LETTER SE)
  309	0x305C	ぜ (HIRAGANA LETTER ZE)
  310	0x305D	そ (HIRAGANA LETTER SO)
  311	0x305E	ぞ (HIRAGANA LETTER ZO)
  312	0x305F	た (HIRAGANA LETTER TA)
  313	0x3060	だ (HIRAGANA LETTER DA)
  314	0x3061	ち (HIRAGANA LETTER TI)
  315	0x3062	ぢ (HIRAGANA LETTER DI)
  316	0x3063	っ (HIRAGANA LETTER SMALL TU)
  317	0x3064	つ (HIRAGANA LETTER TU)
  318	0x3065	づ (HIRAGANA LETTER DU)
  319	0x3066	て (HIRAGANA LETTER TE)
  320	0x3067	で (HIRAGANA LETTER DE)
  321	0x3068	と (HIRAGANA LETTER TO)
  322	0x3069	ど (HIRAGANA LETTER DO)
  323	0x306A	な (HIRAGANA LETTER NA)
  324	0x306B	に (HIRAGANA LETTER NI)
  325	0x306C	ぬ (HIRAGANA LETTER NU)
  326	0x306D	ね (HIRAGANA LETTER NE)
  327	0x306E	の (HIRAGANA LETTER NO)
  328	0x306F	は (HIRAGANA LETTER HA)
  329	0x3070	ば (HIRAGANA LETTER BA)
  330	0x3071	ぱ (HIRAGANA LETTER PA)
  331	0x3072	ひ (HIRAGANA LETTER HI)
  332	0x3073	び (HIRAGANA LETTER BI)
  333	0x3074	ぴ (HIRAGANA LETTER PI)
  334	0x3075	ふ (HIRAGANA LETTER HU)
  335	0x3076	ぶ (HIRAGANA LETTER BU)
  336	0x3077	ぷ (HIRAGANA LETTER PU)
  337	0x3078	へ (HIRAGANA LETTER HE)
  338	0x3079	べ (HIRAGANA LETTER BE)
  339	0x307A	ぺ (HIRAGANA LETTER PE)
  340	0x307B	ほ (HIRAGANA LETTER HO)
  341	0x307C	ぼ (HIRAGANA LETTER BO)
  342	0x307D	ぽ (HIRAGANA LETTER PO)
  343	0x307E	ま (HIRAGANA LETTER MA)
  344	0x307F	み (HIRAGANA LETTER MI)
  345	0x3080	む (HIRAGANA LETTER MU)
  346	0x3081	め (HIRAGANA LETTER ME)
  347	0x3082	も (HIRAGANA LETTER MO)
  348	0x3083	ゃ (HIRAGANA LETTER SMALL YA)
  349	0x3084	や (HIRAGANA LETTER YA)
  350	0x3085	ゅ (HIRAGANA LETTER SMALL YU)
  351	0x3086	ゆ (HIRAGANA LETTER YU)
  352	0x3087	ょ (HIRAGANA LETTER SMALL YO)
  353	0x3088	よ (HIRAGANA LETTER YO)
  354	0x3089	ら (HIRAGANA LETTER RA)
  355	0x308A	り (HIRAGANA LETTER RI)
  356	0x308B	る (HIRAGANA LETTER RU)
  357	0x308C	れ (HIRAGANA LETTER RE)
  358	0x308D	ろ (HIRAGANA LETTER RO)
  359	0x308E	ゎ (HIRAGANA LETTER SMALL WA)
  360	0x308F	わ (HIRAGANA LETTER WA)
  361	0x3090	ゐ (HIRAGANA LETTER WI)
  362	0x3091	ゑ (HIRAGANA LETTER WE)
  363	0x3092	を (HIRAGANA LETTER WO)
  364	0x3093	ん (HIRAGANA LETTER N)
"#

/-- encoding_tables/whatwg/index-jis0208.txt:299-432 -/
noncomputable def index2 : List Text := lines! r#"  376	0x30A1	ァ (KATAKANA LETTER SMALL A)
  377	0x30A2	ア (KATAKANA LETTER A)
  378	0x30A3	ィ (KATAKANA LETTER SMALL I)
  379	0x30A4	イ (KATAKANA LETTER I)
  380	0x30A5	ゥ (KATAKANA LETTER SMALL U)
  381	0x30A6	ウ (KATAKANA LETTER U)
  382	0x30A7	ェ (KATAKANA LETTER SMALL E)
  383	0x30A8	エ (KATAKANA LETTER E)
  384	0x30A9	ォ (KATAKANA LETTER SMALL O)
  385	0x30AA	オ (KATAKANA LETTER O)
  386	0x30AB	カ (KATAKANA LETTER KA)
  387	0x30AC	ガ (KATAKANA LETTER GA)
  388	0x30AD	キ (KATAKANA LETTER KI)
  389	0x30AE	ギ (KATAKANA LETTER GI)
  390	0x30AF	ク (KATAKANA LETTER KU)
  391	0x30B0	グ (KATAKANA LETTER GU)
  392	0x30B1	ケ (KATAKANA LETTER KE)
  393	0x30B2	ゲ (KATAKANA LETTER GE)
  394	0x30B3	コ (KATAKANA LETTER KO)
  395	0x30B4	ゴ (KATAKANA LETTER GO)
  396	0x30B5	サ (KATAKANA LETTER SA)
  397	0x30B6	ザ (KATAKANA LETTER ZA)
  398	0x30B7	シ (KATAKANA LETTER SI)
  399	0x30B8	ジ (KATAKANA LETTER ZI)
  400	0x30B9	ス (KATAKANA LETTER SU)
  401	0x30BA	ズ (KATAKANA LETTER ZU)
  402	0x30BB	セ (KATAKANA LETTER SE)
  403	0x30BC	ゼ (KATAKANA LETTER ZE)
  404	0x30BD	ソ (KATAKANA LETTER SO)
  405	0x30BE	ゾ (KATAKANA LETTER ZO)
  406	0x30BF	タ (KATAKANA LETTER TA)
  407	0x30C0	ダ (KATAKANA LETTER DA)
  408	0x30C1	チ (KATAKANA LETTER TI)
  409	0x30C2	ヂ (KATAKANA LETTER DI)
  410	0x30C3	ッ (KATAKANA LETTER SMALL TU)
  411	0x30C4	ツ (KATAKANA LETTER TU)
  412	0x30C5	ヅ (KATAKANA LETTER DU)
  413	0x30C6	テ (KATAKANA LETTER TE)
  414	0x30C7	デ (KATAKANA LETTER DE)
  415	0x30C8	ト (KATAKANA LETTER TO)
  416	0x30C9	ド (KATAKANA LETTER DO)
  417	0x30CA	ナ (KATAKANA LETTER NA)
  418	0x30CB	ニ (KATAKANA LETTER NI)
  419	0x30CC	ヌ (KATAKANA LETTER NU)
  420	0x30CD	ネ (KATAKANA LETTER NE)
  421	0x30CE	ノ (KATAKANA LETTER NO)
  422	0x30CF	ハ (KATAKANA LETTER HA)
  423	0x30D0	バ (KATAKANA LETTER BA)
  424	0x30D1	パ (KATAKANA LETTER PA)
  425	0x30D2	ヒ (KATAKANA LETTER HI)
  426	0x30D3	ビ (KATAKANA LETTER BI)
  427	0x30D4	ピ (KATAKANA LETTER PI)
  428	0x30D5	フ (KATAKANA LETTER HU)
  429	0x30D6	ブ (KATAKANA LETTER BU)
  430	0x30D7	プ (KATAKANA LETTER PU)
  431	0x30D8	ヘ (KATAKANA LETTER HE)
  432	0x30D9	ベ (KATAKANA LETTER BE)
  433	0x30DA	ペ (KATAKANA LETTER PE)
  434	0x30DB	ホ (KATAKANA LETTER HO)
  435	0x30DC	ボ (KATAKANA LETTER BO)
  436	0x30DD	ポ (KATAKANA LETTER PO)
  437	0x30DE	マ (KATAKANA LETTER MA)
  438	0x30DF	ミ (KATAKANA LETTER MI)
  439	0x30E0	ム (KATAKANA LETTER MU)
  440	0x30E1	メ (KATAKANA LETTER ME)
  441	0x30E2	モ (KATAKANA LETTER MO)
  442	0x30E3	ャ (KATAKANA LETTER SMALL YA)
  443	0x30E4	ヤ (KATAKANA LETTER YA)
  444	0x30E5	ュ (KATAKANA LETTER SMALL YU)
  445	0x30E6	ユ (KATAKANA LETTER YU)
  446	0x30E7	ョ (KATAKANA LETTER SMALL YO)
  447	0x30E8	ヨ (KATAKANA LETTER YO)
  448	0x30E9	ラ (KATAKANA LETTER RA)
  449	0x30EA	リ (KATAKANA LETTER RI)
  450	0x30EB	ル (KATAKANA LETTER RU)
  451	0x30EC	レ (KATAKANA LETTER RE)
  452	0x30ED	ロ (KATAKANA LETTER RO)
  453	0x30EE	ヮ (KATAKANA LETTER SMALL WA)
  454	0x30EF	ワ (KATAKANA LETTER WA)
  455	0x30F0	ヰ (KATAKANA LETTER WI)
  456	0x30F1	ヱ (KATAKANA LETTER WE)
  457	0x30F2	ヲ (KATAKANA LETTER WO)
  458	0x30F3	ン (KATAKANA LETTER N)
  459	0x30F4	ヴ (KATAKANA LETTER VU)
  460	0x30F5	ヵ (KATAKANA LETTER SMALL KA)
  461	0x30F6	ヶ (KATAKANA LETTER SMALL KE)
  470	0x0391	Α (GREEK CAPITAL LETTER ALPHA)
  471	0x0392	Β (GREEK CAPITAL LETTER BETA)
  472	0x0393	Γ (GREEK CAPITAL LETTER GAMMA)
  473	0x0394	Δ (GREEK CAPITAL LETTER DELTA)
  474	0x0395	Ε (GREEK CAPITAL LETTER EPSILON)
  475	0x0396	Ζ (GREEK CAPITAL LETTER ZETA)
  476	0x0397	Η (GREEK CAPITAL LETTER ETA)
  477	0x0398	Θ (GREEK CAPITAL LETTER THETA)
  478	0x0399	Ι (GREEK CAPITAL LETTER IOTA)
  479	0x039A	Κ (GREEK CAPITAL LETTER KAPPA)
  480	0x039B	Λ (GREEK CAPITAL LETTER LAMDA)
  481	0x039C	Μ (GREEK CAPITAL LETTER MU)
  482	0x039D	Ν (GREEK CAPITAL LETTER NU)
  483	0x039E	Ξ (GREEK CAPITAL LETTER XI)
  484	0x039F	Ο (GREEK CAPITAL LETTER OMICRON)
  485	0x03A0	Π (GREEK CAPITAL LETTER PI)
  486	0x03A1	Ρ (GREEK CAPITAL LETTER RHO)
  487	0x03A3	Σ (GREEK CAPITAL LETTER SIGMA)
  488	0x03A4	Τ (GREEK CAPITAL LETTER TAU)
  489	0x03A5	Υ (GREEK CAPITAL LETTER UPSILON)
  490	0x03A6	Φ (GREEK CAPITAL LETTER PHI)
  491	0x03A7	Χ (GREEK CAPITAL LETTER CHI)
  492	0x03A8	Ψ (GREEK CAPITAL LETTER PSI)
  493	0x03A9	Ω (GREEK CAPITAL LETTER OMEGA)
  502	0x03B1	α (GREEK SMALL LETTER ALPHA)
  503	0x03B2	β (GREEK SMALL LETTER BETA)
  504	0x03B3	γ (GREEK SMALL LETTER GAMMA)
  505	0x03B4	δ (GREEK SMALL LETTER DELTA)
  506	0x03B5	ε (GREEK SMALL LETTER EPSILON)
  507	0x03B6	ζ (GREEK SMALL LETTER ZETA)
  508	0x03B7	η (GREEK SMALL LETTER ETA)
  509	0x03B8	θ (GREEK SMALL LETTER THETA)
  510	0x03B9	ι (GREEK SMALL LETTER IOTA)
  511	0x03BA	κ (GREEK SMALL LETTER KAPPA)
  512	0x03BB	λ (GREEK SMALL LETTER LAMDA)
  513	0x03BC	μ (GREEK SMALL LETTER MU)
  514	0x03BD	ν (GREEK SMALL LETTER NU)
  515	0x03BE	ξ (GREEK SMALL LETTER XI)
  516	0x03BF	ο (GREEK SMALL LETTER OMICRON)
  517	0x03C0	π (GREEK SMALL LETTER PI)
  518	0x03C1	ρ (GREEK SMALL LETTER RHO)
  519	0x03C3	σ (GREEK SMALL LETTER SIGMA)
  520	0x03C4	τ (GREEK SMALL LETTER TAU)
  521	0x03C5	υ (GREEK SMALL LETTER UPSILON)
  522	0x03C6	φ (GREEK SMALL LETTER PHI)
  523	0x03C7	χ (GREEK SMALL LETTER CHI)
  524	0x03C8	ψ (GREEK SMALL LETTER PSI)
  525	0x03C9	ω (GREEK SMALL LETTER OMEGA)
"#

/-- encoding_tables/whatwg/index-jis0208.txt:433-530 -/
noncomputable def index3 : List Text := lines! r#"  564	0x0410	А (CYRILLIC CAPITAL LETTER A)
  565	0x0411	Б (CYRILLIC CAPITAL LETTER BE)
  566	0x0412	В (CYRILLIC CAPITAL LETTER VE)
  567	0x0413	Г (CYRILLIC CAPITAL LETTER GHE)
  568	0x0414	Д (CYRILLIC CAPITAL LETTER DE)
  569	0x0415	Е (CYRILLIC CAPITAL LETTER IE)
  570	0x0401	Ё (CYRILLIC CAPITAL LETTER IO)
  571	0x0416	Ж (CYRILLIC CAPITAL LETTER ZHE)
  572	0x0417	З (CYRILLIC CAPITAL LETTER ZE)
  573	0x0418	И (CYRILLIC CAPITAL LETTER I)
  574	0x0419	Й (CYRILLIC CAPITAL LETTER SHORT I)
  575	0x041A	К (CYRILLIC CAPITAL LETTER KA)
  576	0x041B	Л (CYRILLIC CAPITAL LETTER EL)
  577	0x041C	М (CYRILLIC CAPITAL LETTER EM)
  578	0x041D	Н (CYRILLIC CAPITAL LETTER EN)
  579	0x041E	О (CYRILLIC CAPITAL LETTER O)
  580	0x041F	П (CYRILLIC CAPITAL LETTER PE)
  581	0x0420	Р (CYRILLIC CAPITAL LETTER ER)
  582	0x0421	С (CYRILLIC CAPITAL LETTER ES)
  583	0x0422	Т (CYRILLIC CAPITAL LETTER TE)
  584	0x0423	У (CYRILLIC CAPITAL LETTER U)
  585	0x0424	Ф (CYRILLIC CAPITAL LETTER EF)
  586	0x0425	Х (CYRILLIC CAPITAL LETTER HA)
  587	0x0426	Ц (CYRILLIC CAPITAL LETTER TSE)
  588	0x0427	Ч (CYRILLIC CAPITAL LETTER CHE)
  589	0x0428	Ш (CYRILLIC CAPITAL LETTER SHA)
  590	0x0429	Щ (CYRILLIC CAPITAL LETTER SHCHA)
  591	0x042A	Ъ (CYRILLIC CAPITAL LETTER HARD SIGN)
  592	0x042B	Ы (CYRILLIC CAPITAL LETTER YERU)
  593	0x042C	Ь (CYRILLIC CAPITAL LETTER SOFT SIGN)
  594	0x042D	Э (CYRILLIC CAPITAL LETTER E)
  595	0x042E	Ю (CYRILLIC CAPITAL LETTER YU)
  596	0x042F	Я (CYRILLIC CAPITAL LETTER YA)
  612	0x0430	а (CYRILLIC SMALL LETTER A)
  613	0x0431	б (CYRILLIC SMALL LETTER BE)
  614	0x0432	в (CYRILLIC SMALL LETTER VE)
  615	0x0433	г (CYRILLIC SMALL LETTER GHE)
  616	0x0434	д (CYRILLIC SMALL LETTER DE)
  617	0x0435	е (CYRILLIC SMALL LETTER IE)
  618	0x0451	ё (CYRILLIC SMALL LETTER IO)
  619	0x0436	ж (CYRILLIC SMALL LETTER ZHE)
  620	0x0437	з (CYRILLIC SMALL LETTER ZE)
  621	0x0438	и (CYRILLIC SMALL LETTER I)
  622	0x0439	й (CYRILLIC SMALL LETTER SHORT I)
  623	0x043A	к (CYRILLIC SMALL LETTER KA)
  624	0x043B	л (CYRILLIC SMALL LETTER EL)
  625	0x043C	м (CYRILLIC SMALL LETTER EM)
  626	0x043D	н (CYRILLIC SMALL LETTER EN)
  627	0x043E	о (CYRILLIC SMALL LETTER O)
  628	0x043F	п (CYRILLIC SMALL LETTER PE)
  629	0x0440	р (CYRILLIC SMALL LETTER ER)
  630	0x0441	с (CYRILLIC SMALL LETTER ES)
  631	0x0442	т (CYRILLIC SMALL LETTER TE)
  632	0x0443	у (CYRILLIC SMALL LETTER U)
  633	0x0444	ф (CYRILLIC SMALL LETTER EF)
  634	0x0445	х (CYRILLIC SMALL LETTER HA)
  635	0x0446	ц (CYRILLIC SMALL LETTER TSE)
  636	0x0447	ч (CYRILLIC SMALL LETTER CHE)
  637	0x0448	ш (CYRILLIC SMALL LETTER SHA)
  638	0x0449	щ (CYRILLIC SMALL LETTER SHCHA)
  639	0x044A	ъ (CYRILLIC SMALL LETTER HARD SIGN)
  640	0x044B	ы (CYRILLIC SMALL LETTER YERU)
  641	0x044C	ь (CYRILLIC SMALL LETTER SOFT SIGN)
  642	0x044D	э (CYRILLIC SMALL LETTER E)
  643	0x044E	ю (CYRILLIC SMALL LETTER YU)
  644	0x044F	я (CYRILLIC SMALL LETTER YA)
  658	0x2500	─ (BOX DRAWINGS LIGHT HORIZONTAL)
  659	0x2502	│ (BOX DRAWINGS LIGHT VERTICAL)
  660	0x250C	┌ (BOX DRAWINGS LIGHT DOWN AND RIGHT)
  661	0x2510	┐ (BOX DRAWINGS LIGHT DOWN AND LEFT)
  662	0x2518	┘ (BOX DRAWINGS LIGHT UP AND LEFT)
  663	0x2514	└ (BOX DRAWINGS LIGHT UP AND RIGHT)
  664	0x251C	├ (BOX DRAWINGS LIGHT VERTICAL AND RIGHT)
  665	0x252C	┬ (BOX DRAWINGS LIGHT DOWN AND HORIZONTAL)
  666	0x2524	┤ (BOX DRAWINGS LIGHT VERTICAL AND LEFT)
  667	0x2534	┴ (BOX DRAWINGS LIGHT UP AND HORIZONTAL)
  668	0x253C	┼ (BOX DRAWINGS LIGHT VERTICAL AND HORIZONTAL)
  669	0x2501	━ (BOX DRAWINGS HEAVY HORIZONTAL)
  670	0x2503	┃ (BOX DRAWINGS HEAVY VERTICAL)
  671	0x250F	┏ (BOX DRAWINGS HEAVY DOWN AND RIGHT)
  672	0x2513	┓ (BOX DRAWINGS HEAVY DOWN AND LEFT)
  673	0x251B	┛ (BOX DRAWINGS HEAVY UP AND LEFT)
  674	0x2517	┗ (BOX DRAWINGS HEAVY UP AND RIGHT)
  675	0x2523	┣ (BOX DRAWINGS HEAVY VERTICAL AND RIGHT)
  676	0x2533	┳ (BOX DRAWINGS HEAVY DOWN AND HORIZONTAL)
  677	0x252B	┫ (BOX DRAWINGS HEAVY VERTICAL AND LEFT)
  678	0x253B	┻ (BOX DRAWINGS HEAVY UP AND HORIZONTAL)
  679	0x254B	╋ (BOX DRAWINGS HEAVY VERTICAL AND HORIZONTAL)
  680	0x2520	┠ (BOX DRAWINGS VERTICAL HEAVY AND RIGHT LIGHT)
  681	0x252F	┯ (BOX DRAWINGS DOWN LIGHT AND HORIZONTAL HEAVY)
  682	0x2528	┨ (BOX DRAWINGS VERTICAL HEAVY AND LEFT LIGHT)
  683	0x2537	┷ (BOX DRAWINGS UP LIGHT AND HORIZONTAL HEAVY)
  684	0x253F	┿ (BOX DRAWINGS VERTICAL LIGHT AND HORIZONTAL HEAVY)
  685	0x251D	┝ (BOX DRAWINGS VERTICAL LIGHT AND RIGHT HEAVY)
  686	0x2530	┰ (BOX DRAWINGS DOWN HEAVY AND HORIZONTAL LIGHT)
  687	0x2525	┥ (BOX DRAWINGS VERTICAL LIGHT AND LEFT HEAVY)
  688	0x2538	┸ (BOX DRAWINGS UP HEAVY AND HORIZONTAL LIGHT)
  689	0x2542	╂ (BOX DRAWINGS VERTICAL HEAVY AND HORIZONTAL LIGHT)
"#

/-- encoding_tables/whatwg/index-jis0208.txt (no line) -/
noncomputable def index4 : List Text := []

/-- encoding_tables/whatwg/index-jis0208.txt (no line) -/
noncomputable def index5 : List Text := []

/-- encoding_tables/whatwg/index-jis0208.txt:531-613 -/
noncomputable def index6 : List Text := lines! r#" 1128	0x2460	① (CIRCLED DIGIT ONE)
 1129	0x2461	② (CIRCLED DIGIT TWO)
 1130	0x2462	③ (CIRCLED DIGIT THREE)
 1131	0x2463	④ (CIRCLED DIGIT FOUR)
 1132	0x2464	⑤ (CIRCLED DIGIT FIVE)
 1133	0x2465	⑥ (CIRCLED DIGIT SIX)
 1134	0x2466	⑦ (CIRCLED DIGIT SEVEN)
 1135	0x2467	⑧ (CIRCLED DIGIT EIGHT)
 1136	0x2468	⑨ (CIRCLED DIGIT NINE)
 1137	0x2469	⑩ (CIRCLED NUMBER TEN)
 1138	0x246A	⑪ (CIRCLED NUMBER ELEVEN)
 1139	0x246B	⑫ (CIRCLED NUMBER TWELVE)
 1140	0x246C	⑬ (CIRCLED NUMBER THIRTEEN)
 1141	0x246D	⑭ (CIRCLED NUMBER FOURTEEN)
 1142	0x246E	⑮ (CIRCLED NUMBER FIFTEEN)
 1143	0x246F	⑯ (CIRCLED NUMBER SIXTEEN)
 1144	0x2470	⑰ (CIRCLED NUMBER SEVENTEEN)
 1145	0x2471	⑱ (CIRCLED NUMBER EIGHTEEN)
 1146	0x2472	⑲ (CIRCLED NUMBER NINETEEN)
 1147	0x2473	⑳ (CIRCLED NUMBER TWENTY)
 1148	0x2160	Ⅰ (ROMAN NUMERAL ONE)
 1149	0x2161	Ⅱ (ROMAN NUMERAL TWO)
 1150	0x2162	Ⅲ (ROMAN NUMERAL THREE)
 1151	0x2163	Ⅳ (ROMAN NUMERAL FOUR)
 1152	0x2164	Ⅴ (ROMAN NUMERAL FIVE)
 1153	0x2165	Ⅵ (ROMAN NUMERAL SIX)
 1154	0x2166	Ⅶ (ROMAN NUMERAL SEVEN)
 1155	0x2167	Ⅷ (ROMAN NUMERAL EIGHT)
 1156	0x2168	Ⅸ (ROMAN NUMERAL NINE)
 1157	0x2169	Ⅹ (ROMAN NUMERAL TEN)
 1159	0x3349	㍉ (SQUARE MIRI)
 1160	0x3314	㌔ (SQUARE KIRO)
 1161	0x3322	㌢ (SQUARE SENTI)
 1162	0x334D	㍍ (SQUARE MEETORU)
 1163	0x3318	㌘ (SQUARE GURAMU)
 1164	0x3327	㌧ (SQUARE TON)
 1165	0x3303	㌃ (SQUARE AARU)
 1166	0x3336	㌶ (SQUARE HEKUTAARU)
 1167	0x3351	㍑ (SQUARE RITTORU)
 1168	0x3357	㍗ (SQUARE WATTO)
 1169	0x330D	㌍ (SQUARE KARORII)
 1170	0x3326	㌦ (SQUARE DORU)
 1171	0x3323	㌣ (SQUARE SENTO)
 1172	0x332B	㌫ (SQUARE PAASENTO)
 1173	0x334A	㍊ (SQUARE MIRIBAARU)
 1174	0x333B	㌻ (SQUARE PEEZI)
 1175	0x339C	㎜ (SQUARE MM)
 1176	0x339D	㎝ (SQUARE CM)
 1177	0x339E	㎞ (SQUARE KM)
 1178	0x338E	㎎ (SQUARE MG)
 1179	0x338F	㎏ (SQUARE KG)
 1180	0x33C4	㏄ (SQUARE CC)
 1181	0x33A1	㎡ (SQUARE M SQUARED)
 1190	0x337B	㍻ (SQUARE ERA NAME HEISEI)
 1191	0x301D	〝 (REVERSED DOUBLE PRIME QUOTATION MARK)
 1192	0x301F	〟 (LOW DOUBLE PRIME QUOTATION MARK)
 1193	0x2116	№ (NUMERO SIGN)
 1194	0x33CD	㏍ (SQUARE KK)
 1195	0x2121	℡ (TELEPHONE SIGN)
 1196	0x32A4	㊤ (CIRCLED IDEOGRAPH HIGH)
 1197	0x32A5	㊥ (CIRCLED IDEOGRAPH CENTRE)
 1198	0x32A6	㊦ (CIRCLED IDEOGRAPH LOW)
 1199	0x32A7	㊧ (CIRCLED IDEOGRAPH LEFT)
 1200	0x32A8	㊨ (CIRCLED IDEOGRAPH RIGHT)
 1201	0x3231	㈱ (PARENTHESIZED IDEOGRAPH STOCK)
 1202	0x3232	㈲ (PARENTHESIZED IDEOGRAPH HAVE)
 1203	0x3239	㈹ (PARENTHESIZED IDEOGRAPH REPRESENT)
 1204	0x337E	㍾ (SQUARE ERA NAME MEIZI)
 1205	0x337D	㍽ (SQUARE ERA NAME TAISYOU)
 1206	0x337C	㍼ (SQUARE ERA NAME SYOUWA)
 1207	0x2252	≒ (APPROXIMATELY EQUAL TO OR THE IMAGE OF)
 1208	0x2261	≡ (IDENTICAL TO)
 1209	0x222B	∫ (INTEGRAL)
 1210	0x222E	∮ (CONTOUR INTEGRAL)
 1211	0x2211	∑ (N-ARY SUMMATION)
 1212	0x221A	√ (SQUARE ROOT)
 1213	0x22A5	⊥ (UP TACK)
 1214	0x2220	∠ (ANGLE)
 1215	0x221F	∟ (RIGHT ANGLE)
 1216	0x22BF	⊿ (RIGHT TRIANGLE)
 1217	0x2235	∵ (BECAUSE)
 1218	0x2229	∩ (INTERSECTION)
 1219	0x222A	∪ (UNION)
"#

/-- encoding_tables/whatwg/index-jis0208.txt:614-707 -/
noncomputable def index7 : List Text := lines! r#" 1410	0x4E9C	亜 (<CJK Ideograph>)
 1411	0x5516	唖 (<CJK Ideograph>)
 1412	0x5A03	娃 (<CJK Ideograph>)
 1413	0x963F	阿 (<CJK Ideograph>)
 1414	0x54C0	哀 (<CJK Ideograph>)
 1415	0x611B	愛 (<CJK Ideograph>)
 1416	0x6328	挨 (<CJK Ideograph>)
 1417	0x59F6	姶 (<CJK Ideograph>)
 1418	0x9022	逢 (<CJK Ideograph>)
 1419	0x8475	葵 (<CJK Ideograph>)
 1420	0x831C	茜 (<CJK Ideograph>)
 1421	0x7A50	穐 (<CJK Ideograph>)
 1422	0x60AA	悪 (<CJK Ideograph>)
 1423	0x63E1	握 (<CJK Ideograph>)
 1424	0x6E25	渥 (<CJK Ideograph>)
 1425	0x65ED	旭 (<CJK Ideograph>)
 1426	0x8466	葦 (<CJK Ideograph>)
 1427	0x82A6	芦 (<CJK Ideograph>)
 1428	0x9BF5	鯵 (<CJK Ideograph>)
 1429	0x6893	梓 (<CJK Ideograph>)
 1430	0x5727	圧 (<CJK Ideograph>)
 1431	0x65A1	斡 (<CJK Ideograph>)
 1432	0x6271	扱 (<CJK Ideograph>)
 1433	0x5B9B	宛 (<CJK Ideograph>)
 1434	0x59D0	姐 (<CJK Ideograph>)
 1435	0x867B	虻 (<CJK Ideograph>)
 1436	0x98F4	飴 (<CJK Ideograph>)
 1437	0x7D62	絢 (<CJK Ideograph>)
 1438	0x7DBE	綾 (<CJK Ideograph>)
 1439	0x9B8E	鮎 (<CJK Ideograph>)
 1440	0x6216	或 (<CJK Ideograph>)
 1441	0x7C9F	粟 (<CJK Ideograph>)
 1442	0x88B7	袷 (<CJK Ideograph>)
 1443	0x5B89	安 (<CJK Ideograph>)
 1444	0x5EB5	庵 (<CJK Ideograph>)
 1445	0x6309	按 (<CJK Ideograph>)
 1446	0x6697	暗 (<CJK Ideograph>)
 1447	0x6848	案 (<CJK Ideograph>)
 1448	0x95C7	闇 (<CJK Ideograph>)
 1449	0x978D	鞍 (<CJK Ideograph>)
 1450	0x674F	杏 (<CJK Ideograph>)
 1451	0x4EE5	以 (<CJK Ideograph>)
 1452	0x4F0A	伊 (<CJK Ideograph>)
 1453	0x4F4D	位 (<CJK Ideograph>)
 1454	0x4F9D	依 (<CJK Ideograph>)
 1455	0x5049	偉 (<CJK Ideograph>)
 1456	0x56F2	囲 (<CJK Ideograph>)
 1457	0x5937	夷 (<CJK Ideograph>)
 1458	0x59D4	委 (<CJK Ideograph>)
 1459	0x5A01	威 (<CJK Ideograph>)
 1460	0x5C09	尉 (<CJK Ideograph>)
 1461	0x60DF	惟 (<CJK Ideograph>)
 1462	0x610F	意 (<CJK Ideograph>)
 1463	0x6170	慰 (<CJK Ideograph>)
 1464	0x6613	易 (<CJK Ideograph>)
 1465	0x6905	椅 (<CJK Ideograph>)
 1466	0x70BA	為 (<CJK Ideograph>)
 1467	0x754F	畏 (<CJK Ideograph>)
 1468	0x7570	異 (<CJK Ideograph>)
 1469	0x79FB	移 (<CJK Ideograph>)
 1470	0x7DAD	維 (<CJK Ideograph>)
 1471	0x7DEF	緯 (<CJK Ideograph>)
 1472	0x80C3	胃 (<CJK Ideograph>)
 1473	0x840E	萎 (<CJK Ideograph>)
 1474	0x8863	衣 (<CJK Ideograph>)
 1475	0x8B02	謂 (<CJK Ideograph>)
 1476	0x9055	違 (<CJK Ideograph>)
 1477	0x907A	遺 (<CJK Ideograph>)
 1478	0x533B	医 (<CJK Ideograph>)
 1479	0x4E95	井 (<CJK Ideograph>)
 1480	0x4EA5	亥 (<CJK Ideograph>)
 1481	0x57DF	域 (<CJK Ideograph>)
 1482	0x80B2	育 (<CJK Ideograph>)
 1483	0x90C1	郁 (<CJK Ideograph>)
 1484	0x78EF	磯 (<CJK Ideograph>)
 1485	0x4E00	一 (<CJK Ideograph>)
 1486	0x58F1	壱 (<CJK Ideograph>)
 1487	0x6EA2	溢 (<CJK Ideograph>)
 1488	0x9038	逸 (<CJK Ideograph>)
 1489	0x7A32	稲 (<CJK Ideograph>)
 1490	0x8328	茨 (<CJK Ideograph>)
 1491	0x828B	芋 (<CJK Ideograph>)
 1492	0x9C2F	鰯 (<CJK Ideograph>)
 1493	0x5141	允 (<CJK Ideograph>)
 1494	0x5370	印 (<CJK Ideograph>)
 1495	0x54BD	咽 (<CJK Ideograph>)
 1496	0x54E1	員 (<CJK Ideograph>)
 1497	0x56E0	因 (<CJK Ideograph>)
 1498	0x59FB	姻 (<CJK Ideograph>)
 1499	0x5F15	引 (<CJK Ideograph>)
 1500	0x98F2	飲 (<CJK Ideograph>)
 1501	0x6DEB	淫 (<CJK Ideograph>)
 1502	0x80E4	胤 (<CJK Ideograph>)
 1503	0x852D	蔭 (<CJK Ideograph>)
"#

/-- encoding_tables/whatwg/index-jis0208.txt:708-895 -/
noncomputable def index8 : List Text := lines! r#" 1504	0x9662	院 (<CJK Ideograph>)
 1505	0x9670	陰 (<CJK Ideograph>)
 1506	0x96A0	隠 (<CJK Ideograph>)
 1507	0x97FB	韻 (<CJK Ideograph>)
 1508	0x540B	吋 (<CJK Ideograph>)
 1509	0x53F3	右 (<CJK Ideograph>)
 1510	0x5B87	宇 (<CJK Ideograph>)
 1511	0x70CF	烏 (<CJK Ideograph>)
 1512	0x7FBD	羽 (<CJK Ideograph>)
 1513	0x8FC2	迂 (<CJK Ideograph>)
 1514	0x96E8	雨 (<CJK Ideograph>)
 1515	0x536F	卯 (<CJK Ideograph>)
 1516	0x9D5C	鵜 (<CJK Ideograph>)
 1517	0x7ABA	窺 (<CJK Ideograph>)
 1518	0x4E11	丑 (<CJK Ideograph>)
 1519	0x7893	碓 (<CJK Ideograph>)
 1520	0x81FC	臼 (<CJK Ideograph>)
 1521	0x6E26	渦 (<CJK Ideograph>)
 1522	0x5618	嘘 (<CJK Ideograph>)
 1523	0x5504	唄 (<CJK Ideograph>)
 1524	0x6B1D	欝 (<CJK Ideograph>)
 1525	0x851A	蔚 (<CJK Ideograph>)
 1526	0x9C3B	鰻 (<CJK Ideograph>)
 1527	0x59E5	姥 (<CJK Ideograph>)
 1528	0x53A9	厩 (<CJK Ideograph>)
 1529	0x6D66	浦 (<CJK Ideograph>)
 1530	0x74DC	瓜 (<CJK Ideograph>)
 1531	0x958F	閏 (<CJK Ideograph>)
 1532	0x5642	噂 (<CJK Ideograph>)
 1533	0x4E91	云 (<CJK Ideograph>)
 1534	0x904B	運 (<CJK Ideograph>)
 1535	0x96F2	雲 (<CJK Ideograph>)
 1536	0x834F	荏 (<CJK Ideograph>)
 1537	0x990C	餌 (<CJK Ideograph>)
 1538	0x53E1	叡 (<CJK Ideograph>)
 1539	0x55B6	営 (<CJK Ideograph>)
 1540	0x5B30	嬰 (<CJK Ideograph>)
 1541	0x5F71	影 (<CJK Ideograph>)
 1542	0x6620	映 (<CJK Ideograph>)
 1543	0x66F3	曳 (<CJK Ideograph>)
 1544	0x6804	栄 (<CJK Ideograph>)
 1545	0x6C38	永 (<CJK Ideograph>)
 1546	0x6CF3	泳 (<CJK Ideograph>)
 1547	0x6D29	洩 (<CJK Ideograph>)
 1548	0x745B	瑛 (<CJK Ideograph>)
 1549	0x76C8	盈 (<CJK Ideograph>)
 1550	0x7A4E	穎 (<CJK Ideograph>)
 1551	0x9834	頴 (<CJK Ideograph>)
 1552	0x82F1	英 (<CJK Ideograph>)
 1553	0x885B	衛 (<CJK Ideograph>)
 1554	0x8A60	詠 (<CJK Ideograph>)
 1555	0x92ED	鋭 (<CJK Ideograph>)
 1556	0x6DB2	液 (<CJK Ideograph>)
 1557	0x75AB	疫 (<CJK Ideograph>)
 1558	0x76CA	益 (<CJK Ideograph>)
 1559	0x99C5	駅 (<CJK Ideograph>)
 1560	0x60A6	悦 (<CJK Ideograph>)
 1561	0x8B01	謁 (<CJK Ideograph>)
 1562	0x8D8A	越 (<CJK Ideograph>)
 1563	0x95B2	閲 (<CJK Ideograph>)
 1564	0x698E	榎 (<CJK Ideograph>)
 1565	0x53AD	厭 (<CJK Ideograph>)
 1566	0x5186	円 (<CJK Ideograph>)
 1567	0x5712	園 (<CJK Ideograph>)
 1568	0x5830	堰 (<CJK Ideograph>)
 1569	0x5944	奄 (<CJK Ideograph>)
 1570	0x5BB4	宴 (<CJK Ideograph>)
 1571	0x5EF6	延 (<CJK Ideograph>)
 1572	0x6028	怨 (<CJK Ideograph>)
 1573	0x63A9	掩 (<CJK Ideograph>)
 1574	0x63F4	援 (<CJK Ideograph>)
 1575	0x6CBF	沿 (<CJK Ideograph>)
 1576	0x6F14	演 (<CJK Ideograph>)
 1577	0x708E	炎 (<CJK Ideograph>)
 1578	0x7114	焔 (<CJK Ideograph>)
 1579	0x7159	煙 (<CJK Ideograph>)
 1580	0x71D5	燕 (<CJK Ideograph>)
 1581	0x733F	猿 (<CJK Ideograph>)
 1582	0x7E01	縁 (<CJK Ideograph>)
 1583	0x8276	艶 (<CJK Ideograph>)
 1584	0x82D1	苑 (<CJK Ideograph>)
 1585	0x8597	薗 (<CJK Ideograph>)
 1586	0x9060	遠 (<CJK Ideograph>)
 1587	0x925B	鉛 (<CJK Ideograph>)
 1588	0x9D1B	鴛 (<CJK Ideograph>)
 1589	0x5869	塩 (<CJK Ideograph>)
 1590	0x65BC	於 (<CJK Ideograph>)
 1591	0x6C5A	汚 (<CJK Ideograph>)
 1592	0x7525	甥 (<CJK Ideograph>)
 1593	0x51F9	凹 (<CJK Ideograph>)
 1594	0x592E	央 (<CJK Ideograph>)
 1595	0x5965	奥 (<CJK Ideograph>)
 1596	0x5F80	往 (<CJK Ideograph>)
 1597	0x5FDC	応 (<CJK Ideograph>)
 1598	0x62BC	押 (<CJK Ideograph>)
 1599	0x65FA	旺 (<CJK Ideograph>)
 1600	0x6A2A	横 (<CJK Ideograph>)
 1601	0x6B27	欧 (<CJK Ideograph>)
 1602	0x6BB4	殴 (<CJK Ideograph>)
 1603	0x738B	王 (<CJK Ideograph>)
 1604	0x7FC1	翁 (<CJK Ideograph>)
 1605	0x8956	襖 (<CJK Ideograph>)
 1606	0x9D2C	鴬 (<CJK Ideograph>)
 1607	0x9D0E	鴎 (<CJK Ideograph>)
 1608	0x9EC4	黄 (<CJK Ideograph>)
 1609	0x5CA1	岡 (<CJK Ideograph>)
 1610	0x6C96	沖 (<CJK Ideograph>)
 1611	0x837B	荻 (<CJK Ideograph>)
 1612	0x5104	億 (<CJK Ideograph>)
 1613	0x5C4B	屋 (<CJK Ideograph>)
 1614	0x61B6	憶 (<CJK Ideograph>)
 1615	0x81C6	臆 (<CJK Ideograph>)
 1616	0x6876	桶 (<CJK Ideograph>)
 1617	0x7261	牡 (<CJK Ideograph>)
 1618	0x4E59	乙 (<CJK Ideograph>)
 1619	0x4FFA	俺 (<CJK Ideograph>)
 1620	0x5378	卸 (<CJK Ideograph>)
 1621	0x6069	恩 (<CJK Ideograph>)
 1622	0x6E29	温 (<CJK Ideograph>)
 1623	0x7A4F	穏 (<CJK Ideograph>)
 1624	0x97F3	音 (<CJK Ideograph>)
 1625	0x4E0B	下 (<CJK Ideograph>)
 1626	0x5316	化 (<CJK Ideograph>)
 1627	0x4EEE	仮 (<CJK Ideograph>)
 1628	0x4F55	何 (<CJK Ideograph>)
 1629	0x4F3D	伽 (<CJK Ideograph>)
 1630	0x4FA1	価 (<CJK Ideograph>)
 1631	0x4F73	佳 (<CJK Ideograph>)
 1632	0x52A0	加 (<CJK Ideograph>)
 1633	0x53EF	可 (<CJK Ideograph>)
 1634	0x5609	嘉 (<CJK Ideograph>)
 1635	0x590F	夏 (<CJK Ideograph>)
 1636	0x5AC1	嫁 (<CJK Ideograph>)
 1637	0x5BB6	家 (<CJK Ideograph>)
 1638	0x5BE1	寡 (<CJK Ideograph>)
 1639	0x79D1	科 (<CJK Ideograph>)
 1640	0x6687	暇 (<CJK Ideograph>)
 1641	0x679C	果 (<CJK Ideograph>)
 1642	0x67B6	架 (<CJK Ideograph>)
 1643	0x6B4C	歌 (<CJK Ideograph>)
 1644	0x6CB3	河 (<CJK Ideograph>)
 1645	0x706B	火 (<CJK Ideograph>)
 1646	0x73C2	珂 (<CJK Ideograph>)
 1647	0x798D	禍 (<CJK Ideograph>)
 1648	0x79BE	禾 (<CJK Ideograph>)
 1649	0x7A3C	稼 (<CJK Ideograph>)
 1650	0x7B87	箇 (<CJK Ideograph>)
 1651	0x82B1	花 (<CJK Ideograph>)
 1652	0x82DB	苛 (<CJK Ideograph>)
 1653	0x8304	茄 (<CJK Ideograph>)
 1654	0x8377	荷 (<CJK Ideograph>)
 1655	0x83EF	華 (<CJK Ideograph>)
 1656	0x83D3	菓 (<CJK Ideograph>)
 1657	0x8766	蝦 (<CJK Ideograph>)
 1658	0x8AB2	課 (<CJK Ideograph>)
 1659	0x5629	嘩 (<CJK Ideograph>)
 1660	0x8CA8	貨 (<CJK Ideograph>)
 1661	0x8FE6	迦 (<CJK Ideograph>)
 1662	0x904E	過 (<CJK Ideograph>)
 1663	0x971E	霞 (<CJK Ideograph>)
 1664	0x868A	蚊 (<CJK Ideograph>)
 1665	0x4FC4	俄 (<CJK Ideograph>)
 1666	0x5CE8	峨 (<CJK Ideograph>)
 1667	0x6211	我 (<CJK Ideograph>)
 1668	0x7259	牙 (<CJK Ideograph>)
 1669	0x753B	画 (<CJK Ideograph>)
 1670	0x81E5	臥 (<CJK Ideograph>)
 1671	0x82BD	芽 (<CJK Ideograph>)
 1672	0x86FE	蛾 (<CJK Ideograph>)
 1673	0x8CC0	賀 (<CJK Ideograph>)
 1674	0x96C5	雅 (<CJK Ideograph>)
 1675	0x9913	餓 (<CJK Ideograph>)
 1676	0x99D5	駕 (<CJK Ideograph>)
 1677	0x4ECB	介 (<CJK Ideograph>)
 1678	0x4F1A	会 (<CJK Ideograph>)
 1679	0x89E3	解 (<CJK Ideograph>)
 1680	0x56DE	回 (<CJK Ideograph>)
 1681	0x584A	塊 (<CJK Ideograph>)
 1682	0x58CA	壊 (<CJK Ideograph>)
 1683	0x5EFB	廻 (<CJK Ideograph>)
 1684	0x5FEB	快 (<CJK Ideograph>)
 1685	0x602A	怪 (<CJK Ideograph>)
 1686	0x6094	悔 (<CJK Ideograph>)
 1687	0x6062	恢 (<CJK Ideograph>)
 1688	0x61D0	懐 (<CJK Ideograph>)
 1689	0x6212	戒 (<CJK Ideograph>)
 1690	0x62D0	拐 (<CJK Ideograph>)
 1691	0x6539	改 (<CJK Ideograph>)
"#

/-- encoding_tables/whatwg/index-jis0208.txt:896-1083 -/
noncomputable def index9 : List Text := lines! r#" 1692	0x9B41	魁 (<CJK Ideograph>)
 1693	0x6666	晦 (<CJK Ideograph>)
 1694	0x68B0	械 (<CJK Ideograph>)
 1695	0x6D77	海 (<CJK Ideograph>)
 1696	0x7070	灰 (<CJK Ideograph>)
 1697	0x754C	界 (<CJK Ideograph>)
 1698	0x7686	皆 (<CJK Ideograph>)
 1699	0x7D75	絵 (<CJK Ideograph>)
 1700	0x82A5	芥 (<CJK Ideograph>)
 1701	0x87F9	蟹 (<CJK Ideograph>)
 1702	0x958B	開 (<CJK Ideograph>)
 1703	0x968E	階 (<CJK Ideograph>)
 1704	0x8C9D	貝 (<CJK Ideograph>)
 1705	0x51F1	凱 (<CJK Ideograph>)
 1706	0x52BE	劾 (<CJK Ideograph>)
 1707	0x5916	外 (<CJK Ideograph>)
 1708	0x54B3	咳 (<CJK Ideograph>)
 1709	0x5BB3	害 (<CJK Ideograph>)
 1710	0x5D16	崖 (<CJK Ideograph>)
 1711	0x6168	慨 (<CJK Ideograph>)
 1712	0x6982	概 (<CJK Ideograph>)
 1713	0x6DAF	涯 (<CJK Ideograph>)
 1714	0x788D	碍 (<CJK Ideograph>)
 1715	0x84CB	蓋 (<CJK Ideograph>)
 1716	0x8857	街 (<CJK Ideograph>)
 1717	0x8A72	該 (<CJK Ideograph>)
 1718	0x93A7	鎧 (<CJK Ideograph>)
 1719	0x9AB8	骸 (<CJK Ideograph>)
 1720	0x6D6C	浬 (<CJK Ideograph>)
 1721	0x99A8	馨 (<CJK Ideograph>)
 1722	0x86D9	蛙 (<CJK Ideograph>)
 1723	0x57A3	垣 (<CJK Ideograph>)
 1724	0x67FF	柿 (<CJK Ideograph>)
 1725	0x86CE	蛎 (<CJK Ideograph>)
 1726	0x920E	鈎 (<CJK Ideograph>)
 1727	0x5283	劃 (<CJK Ideograph>)
 1728	0x5687	嚇 (<CJK Ideograph>)
 1729	0x5404	各 (<CJK Ideograph>)
 1730	0x5ED3	廓 (<CJK Ideograph>)
 1731	0x62E1	拡 (<CJK Ideograph>)
 1732	0x64B9	撹 (<CJK Ideograph>)
 1733	0x683C	格 (<CJK Ideograph>)
 1734	0x6838	核 (<CJK Ideograph>)
 1735	0x6BBB	殻 (<CJK Ideograph>)
 1736	0x7372	獲 (<CJK Ideograph>)
 1737	0x78BA	確 (<CJK Ideograph>)
 1738	0x7A6B	穫 (<CJK Ideograph>)
 1739	0x899A	覚 (<CJK Ideograph>)
 1740	0x89D2	角 (<CJK Ideograph>)
 1741	0x8D6B	赫 (<CJK Ideograph>)
 1742	0x8F03	較 (<CJK Ideograph>)
 1743	0x90ED	郭 (<CJK Ideograph>)
 1744	0x95A3	閣 (<CJK Ideograph>)
 1745	0x9694	隔 (<CJK Ideograph>)
 1746	0x9769	革 (<CJK Ideograph>)
 1747	0x5B66	学 (<CJK Ideograph>)
 1748	0x5CB3	岳 (<CJK Ideograph>)
 1749	0x697D	楽 (<CJK Ideograph>)
 1750	0x984D	額 (<CJK Ideograph>)
 1751	0x984E	顎 (<CJK Ideograph>)
 1752	0x639B	掛 (<CJK Ideograph>)
 1753	0x7B20	笠 (<CJK Ideograph>)
 1754	0x6A2B	樫 (<CJK Ideograph>)
 1755	0x6A7F	橿 (<CJK Ideograph>)
 1756	0x68B6	梶 (<CJK Ideograph>)
 1757	0x9C0D	鰍 (<CJK Ideograph>)
 1758	0x6F5F	潟 (<CJK Ideograph>)
 1759	0x5272	割 (<CJK Ideograph>)
 1760	0x559D	喝 (<CJK Ideograph>)
 1761	0x6070	恰 (<CJK Ideograph>)
 1762	0x62EC	括 (<CJK Ideograph>)
 1763	0x6D3B	活 (<CJK Ideograph>)
 1764	0x6E07	渇 (<CJK Ideograph>)
 1765	0x6ED1	滑 (<CJK Ideograph>)
 1766	0x845B	葛 (<CJK Ideograph>)
 1767	0x8910	褐 (<CJK Ideograph>)
 1768	0x8F44	轄 (<CJK Ideograph>)
 1769	0x4E14	且 (<CJK Ideograph>)
 1770	0x9C39	鰹 (<CJK Ideograph>)
 1771	0x53F6	叶 (<CJK Ideograph>)
 1772	0x691B	椛 (<CJK Ideograph>)
 1773	0x6A3A	樺 (<CJK Ideograph>)
 1774	0x9784	鞄 (<CJK Ideograph>)
 1775	0x682A	株 (<CJK Ideograph>)
 1776	0x515C	兜 (<CJK Ideograph>)
 1777	0x7AC3	竃 (<CJK Ideograph>)
 1778	0x84B2	蒲 (<CJK Ideograph>)
 1779	0x91DC	釜 (<CJK Ideograph>)
 1780	0x938C	鎌 (<CJK Ideograph>)
 1781	0x565B	噛 (<CJK Ideograph>)
 1782	0x9D28	鴨 (<CJK Ideograph>)
 1783	0x6822	栢 (<CJK Ideograph>)
 1784	0x8305	茅 (<CJK Ideograph>)
 1785	0x8431	萱 (<CJK Ideograph>)
 1786	0x7CA5	粥 (<CJK Ideograph>)
 1787	0x5208	刈 (<CJK Ideograph>)
 1788	0x82C5	苅 (<CJK Ideograph>)
 1789	0x74E6	瓦 (<CJK Ideograph>)
 1790	0x4E7E	乾 (<CJK Ideograph>)
 1791	0x4F83	侃 (<CJK Ideograph>)
 1792	0x51A0	冠 (<CJK Ideograph>)
 1793	0x5BD2	寒 (<CJK Ideograph>)
 1794	0x520A	刊 (<CJK Ideograph>)
 1795	0x52D8	勘 (<CJK Ideograph>)
 1796	0x52E7	勧 (<CJK Ideograph>)
 1797	0x5DFB	巻 (<CJK Ideograph>)
 1798	0x559A	喚 (<CJK Ideograph>)
 1799	0x582A	堪 (<CJK Ideograph>)
 1800	0x59E6	姦 (<CJK Ideograph>)
 1801	0x5B8C	完 (<CJK Ideograph>)
 1802	0x5B98	官 (<CJK Ideograph>)
 1803	0x5BDB	寛 (<CJK Ideograph>)
 1804	0x5E72	干 (<CJK Ideograph>)
 1805	0x5E79	幹 (<CJK Ideograph>)
 1806	0x60A3	患 (<CJK Ideograph>)
 1807	0x611F	感 (<CJK Ideograph>)
 1808	0x6163	慣 (<CJK Ideograph>)
 1809	0x61BE	憾 (<CJK Ideograph>)
 1810	0x63DB	換 (<CJK Ideograph>)
 1811	0x6562	敢 (<CJK Ideograph>)
 1812	0x67D1	柑 (<CJK Ideograph>)
 1813	0x6853	桓 (<CJK Ideograph>)
 1814	0x68FA	棺 (<CJK Ideograph>)
 1815	0x6B3E	款 (<CJK Ideograph>)
 1816	0x6B53	歓 (<CJK Ideograph>)
 1817	0x6C57	汗 (<CJK Ideograph>)
 1818	0x6F22	漢 (<CJK Ideograph>)
 1819	0x6F97	澗 (<CJK Ideograph>)
 1820	0x6F45	潅 (<CJK Ideograph>)
 1821	0x74B0	環 (<CJK Ideograph>)
 1822	0x7518	甘 (<CJK Ideograph>)
 1823	0x76E3	監 (<CJK Ideograph>)
 1824	0x770B	看 (<CJK Ideograph>)
 1825	0x7AFF	竿 (<CJK Ideograph>)
 1826	0x7BA1	管 (<CJK Ideograph>)
 1827	0x7C21	簡 (<CJK Ideograph>)
 1828	0x7DE9	緩 (<CJK Ideograph>)
 1829	0x7F36	缶 (<CJK Ideograph>)
 1830	0x7FF0	翰 (<CJK Ideograph>)
 1831	0x809D	肝 (<CJK Ideograph>)
 1832	0x8266	艦 (<CJK Ideograph>)
 1833	0x839E	莞 (<CJK Ideograph>)
 1834	0x89B3	観 (<CJK Ideograph>)
 1835	0x8ACC	諌 (<CJK Ideograph>)
 1836	0x8CAB	貫 (<CJK Ideograph>)
 1837	0x9084	還 (<CJK Ideograph>)
 1838	0x9451	鑑 (<CJK Ideograph>)
 1839	0x9593	間 (<CJK Ideograph>)
 1840	0x9591	閑 (<CJK Ideograph>)
 1841	0x95A2	関 (<CJK Ideograph>)
 1842	0x9665	陥 (<CJK Ideograph>)
 1843	0x97D3	韓 (<CJK Ideograph>)
 1844	0x9928	館 (<CJK Ideograph>)
 1845	0x8218	舘 (<CJK Ideograph>)
 1846	0x4E38	丸 (<CJK Ideograph>)
 1847	0x542B	含 (<CJK Ideograph>)
 1848	0x5CB8	岸 (<CJK Ideograph>)
 1849	0x5DCC	巌 (<CJK Ideograph>)
 1850	0x73A9	玩 (<CJK Ideograph>)
 1851	0x764C	癌 (<CJK Ideograph>)
 1852	0x773C	眼 (<CJK Ideograph>)
 1853	0x5CA9	岩 (<CJK Ideograph>)
 1854	0x7FEB	翫 (<CJK Ideograph>)
 1855	0x8D0B	贋 (<CJK Ideograph>)
 1856	0x96C1	雁 (<CJK Ideograph>)
 1857	0x9811	頑 (<CJK Ideograph>)
 1858	0x9854	顔 (<CJK Ideograph>)
 1859	0x9858	願 (<CJK Ideograph>)
 1860	0x4F01	企 (<CJK Ideograph>)
 1861	0x4F0E	伎 (<CJK Ideograph>)
 1862	0x5371	危 (<CJK Ideograph>)
 1863	0x559C	喜 (<CJK Ideograph>)
 1864	0x5668	器 (<CJK Ideograph>)
 1865	0x57FA	基 (<CJK Ideograph>)
 1866	0x5947	奇 (<CJK Ideograph>)
 1867	0x5B09	嬉 (<CJK Ideograph>)
 1868	0x5BC4	寄 (<CJK Ideograph>)
 1869	0x5C90	岐 (<CJK Ideograph>)
 1870	0x5E0C	希 (<CJK Ideograph>)
 1871	0x5E7E	幾 (<CJK Ideograph>)
 1872	0x5FCC	忌 (<CJK Ideograph>)
 1873	0x63EE	揮 (<CJK Ideograph>)
 1874	0x673A	机 (<CJK Ideograph>)
 1875	0x65D7	旗 (<CJK Ideograph>)
 1876	0x65E2	既 (<CJK Ideograph>)
 1877	0x671F	期 (<CJK Ideograph>)
 1878	0x68CB	棋 (<CJK Ideograph>)
 1879	0x68C4	棄 (<CJK Ideograph>)
"#

/-- encoding_tables/whatwg/index-jis0208.txt:1084-1271 -/
noncomputable def index10 : List Text := lines! r#" 1880	0x6A5F	機 (<CJK Ideograph>)
 1881	0x5E30	帰 (<CJK Ideograph>)
 1882	0x6BC5	毅 (<CJK Ideograph>)
 1883	0x6C17	気 (<CJK Ideograph>)
 1884	0x6C7D	汽 (<CJK Ideograph>)
 1885	0x757F	畿 (<CJK Ideograph>)
 1886	0x7948	祈 (<CJK Ideograph>)
 1887	0x5B63	季 (<CJK Ideograph>)
 1888	0x7A00	稀 (<CJK Ideograph>)
 1889	0x7D00	紀 (<CJK Ideograph>)
 1890	0x5FBD	徽 (<CJK Ideograph>)
 1891	0x898F	規 (<CJK Ideograph>)
 1892	0x8A18	記 (<CJK Ideograph>)
 1893	0x8CB4	貴 (<CJK Ideograph>)
 1894	0x8D77	起 (<CJK Ideograph>)
 1895	0x8ECC	軌 (<CJK Ideograph>)
 1896	0x8F1D	輝 (<CJK Ideograph>)
 1897	0x98E2	飢 (<CJK Ideograph>)
 1898	0x9A0E	騎 (<CJK Ideograph>)
 1899	0x9B3C	鬼 (<CJK Ideograph>)
 1900	0x4E80	亀 (<CJK Ideograph>)
 1901	0x507D	偽 (<CJK Ideograph>)
 1902	0x5100	儀 (<CJK Ideograph>)
 1903	0x5993	妓 (<CJK Ideograph>)
 1904	0x5B9C	宜 (<CJK Ideograph>)
 1905	0x622F	戯 (<CJK Ideograph>)
 1906	0x6280	技 (<CJK Ideograph>)
 1907	0x64EC	擬 (<CJK Ideograph>)
 1908	0x6B3A	欺 (<CJK Ideograph>)
 1909	0x72A0	犠 (<CJK Ideograph>)
 1910	0x7591	疑 (<CJK Ideograph>)
 1911	0x7947	祇 (<CJK Ideograph>)
 1912	0x7FA9	義 (<CJK Ideograph>)
 1913	0x87FB	蟻 (<CJK Ideograph>)
 1914	0x8ABC	誼 (<CJK Ideograph>)
 1915	0x8B70	議 (<CJK Ideograph>)
 1916	0x63AC	掬 (<CJK Ideograph>)
 1917	0x83CA	菊 (<CJK Ideograph>)
 1918	0x97A0	鞠 (<CJK Ideograph>)
 1919	0x5409	吉 (<CJK Ideograph>)
 1920	0x5403	吃 (<CJK Ideograph>)
 1921	0x55AB	喫 (<CJK Ideograph>)
 1922	0x6854	桔 (<CJK Ideograph>)
 1923	0x6A58	橘 (<CJK Ideograph>)
 1924	0x8A70	詰 (<CJK Ideograph>)
 1925	0x7827	砧 (<CJK Ideograph>)
 1926	0x6775	杵 (<CJK Ideograph>)
 1927	0x9ECD	黍 (<CJK Ideograph>)
 1928	0x5374	却 (<CJK Ideograph>)
 1929	0x5BA2	客 (<CJK Ideograph>)
 1930	0x811A	脚 (<CJK Ideograph>)
 1931	0x8650	虐 (<CJK Ideograph>)
 1932	0x9006	逆 (<CJK Ideograph>)
 1933	0x4E18	丘 (<CJK Ideograph>)
 1934	0x4E45	久 (<CJK Ideograph>)
 1935	0x4EC7	仇 (<CJK Ideograph>)
 1936	0x4F11	休 (<CJK Ideograph>)
 1937	0x53CA	及 (<CJK Ideograph>)
 1938	0x5438	吸 (<CJK Ideograph>)
 1939	0x5BAE	宮 (<CJK Ideograph>)
 1940	0x5F13	弓 (<CJK Ideograph>)
 1941	0x6025	急 (<CJK Ideograph>)
 1942	0x6551	救 (<CJK Ideograph>)
 1943	0x673D	朽 (<CJK Ideograph>)
 1944	0x6C42	求 (<CJK Ideograph>)
 1945	0x6C72	汲 (<CJK Ideograph>)
 1946	0x6CE3	泣 (<CJK Ideograph>)
 1947	0x7078	灸 (<CJK Ideograph>)
 1948	0x7403	球 (<CJK Ideograph>)
 1949	0x7A76	究 (<CJK Ideograph>)
 1950	0x7AAE	窮 (<CJK Ideograph>)
 1951	0x7B08	笈 (<CJK Ideograph>)
 1952	0x7D1A	級 (<CJK Ideograph>)
 1953	0x7CFE	糾 (<CJK Ideograph>)
 1954	0x7D66	給 (<CJK Ideograph>)
 1955	0x65E7	旧 (<CJK Ideograph>)
 1956	0x725B	牛 (<CJK Ideograph>)
 1957	0x53BB	去 (<CJK Ideograph>)
 1958	0x5C45	居 (<CJK Ideograph>)
 1959	0x5DE8	巨 (<CJK Ideograph>)
 1960	0x62D2	拒 (<CJK Ideograph>)
 1961	0x62E0	拠 (<CJK Ideograph>)
 1962	0x6319	挙 (<CJK Ideograph>)
 1963	0x6E20	渠 (<CJK Ideograph>)
 1964	0x865A	虚 (<CJK Ideograph>)
 1965	0x8A31	許 (<CJK Ideograph>)
 1966	0x8DDD	距 (<CJK Ideograph>)
 1967	0x92F8	鋸 (<CJK Ideograph>)
 1968	0x6F01	漁 (<CJK Ideograph>)
 1969	0x79A6	禦 (<CJK Ideograph>)
 1970	0x9B5A	魚 (<CJK Ideograph>)
 1971	0x4EA8	亨 (<CJK Ideograph>)
 1972	0x4EAB	享 (<CJK Ideograph>)
 1973	0x4EAC	京 (<CJK Ideograph>)
 1974	0x4F9B	供 (<CJK Ideograph>)
 1975	0x4FA0	侠 (<CJK Ideograph>)
 1976	0x50D1	僑 (<CJK Ideograph>)
 1977	0x5147	兇 (<CJK Ideograph>)
 1978	0x7AF6	競 (<CJK Ideograph>)
 1979	0x5171	共 (<CJK Ideograph>)
 1980	0x51F6	凶 (<CJK Ideograph>)
 1981	0x5354	協 (<CJK Ideograph>)
 1982	0x5321	匡 (<CJK Ideograph>)
 1983	0x537F	卿 (<CJK Ideograph>)
 1984	0x53EB	叫 (<CJK Ideograph>)
 1985	0x55AC	喬 (<CJK Ideograph>)
 1986	0x5883	境 (<CJK Ideograph>)
 1987	0x5CE1	峡 (<CJK Ideograph>)
 1988	0x5F37	強 (<CJK Ideograph>)
 1989	0x5F4A	彊 (<CJK Ideograph>)
 1990	0x602F	怯 (<CJK Ideograph>)
 1991	0x6050	恐 (<CJK Ideograph>)
 1992	0x606D	恭 (<CJK Ideograph>)
 1993	0x631F	挟 (<CJK Ideograph>)
 1994	0x6559	教 (<CJK Ideograph>)
 1995	0x6A4B	橋 (<CJK Ideograph>)
 1996	0x6CC1	況 (<CJK Ideograph>)
 1997	0x72C2	狂 (<CJK Ideograph>)
 1998	0x72ED	狭 (<CJK Ideograph>)
 1999	0x77EF	矯 (<CJK Ideograph>)
 2000	0x80F8	胸 (<CJK Ideograph>)
 2001	0x8105	脅 (<CJK Ideograph>)
 2002	0x8208	興 (<CJK Ideograph>)
 2003	0x854E	蕎 (<CJK Ideograph>)
 2004	0x90F7	郷 (<CJK Ideograph>)
 2005	0x93E1	鏡 (<CJK Ideograph>)
 2006	0x97FF	響 (<CJK Ideograph>)
 2007	0x9957	饗 (<CJK Ideograph>)
 2008	0x9A5A	驚 (<CJK Ideograph>)
 2009	0x4EF0	仰 (<CJK Ideograph>)
 2010	0x51DD	凝 (<CJK Ideograph>)
 2011	0x5C2D	尭 (<CJK Ideograph>)
 2012	0x6681	暁 (<CJK Ideograph>)
 2013	0x696D	業 (<CJK Ideograph>)
 2014	0x5C40	局 (<CJK Ideograph>)
 2015	0x66F2	曲 (<CJK Ideograph>)
 2016	0x6975	極 (<CJK Ideograph>)
 2017	0x7389	玉 (<CJK Ideograph>)
 2018	0x6850	桐 (<CJK Ideograph>)
 2019	0x7C81	粁 (<CJK Ideograph>)
 2020	0x50C5	僅 (<CJK Ideograph>)
 2021	0x52E4	勤 (<CJK Ideograph>)
 2022	0x5747	均 (<CJK Ideograph>)
 2023	0x5DFE	巾 (<CJK Ideograph>)
 2024	0x9326	錦 (<CJK Ideograph>)
 2025	0x65A4	斤 (<CJK Ideograph>)
 2026	0x6B23	欣 (<CJK Ideograph>)
 2027	0x6B3D	欽 (<CJK Ideograph>)
 2028	0x7434	琴 (<CJK Ideograph>)
 2029	0x7981	禁 (<CJK Ideograph>)
 2030	0x79BD	禽 (<CJK Ideograph>)
 2031	0x7B4B	筋 (<CJK Ideograph>)
 2032	0x7DCA	緊 (<CJK Ideograph>)
 2033	0x82B9	芹 (<CJK Ideograph>)
 2034	0x83CC	菌 (<CJK Ideograph>)
 2035	0x887F	衿 (<CJK Ideograph>)
 2036	0x895F	襟 (<CJK Ideograph>)
 2037	0x8B39	謹 (<CJK Ideograph>)
 2038	0x8FD1	近 (<CJK Ideograph>)
 2039	0x91D1	金 (<CJK Ideograph>)
 2040	0x541F	吟 (<CJK Ideograph>)
 2041	0x9280	銀 (<CJK Ideograph>)
 2042	0x4E5D	九 (<CJK Ideograph>)
 2043	0x5036	倶 (<CJK Ideograph>)
 2044	0x53E5	句 (<CJK Ideograph>)
 2045	0x533A	区 (<CJK Ideograph>)
 2046	0x72D7	狗 (<CJK Ideograph>)
 2047	0x7396	玖 (<CJK Ideograph>)
 2048	0x77E9	矩 (<CJK Ideograph>)
 2049	0x82E6	苦 (<CJK Ideograph>)
 2050	0x8EAF	躯 (<CJK Ideograph>)
 2051	0x99C6	駆 (<CJK Ideograph>)
 2052	0x99C8	駈 (<CJK Ideograph>)
 2053	0x99D2	駒 (<CJK Ideograph>)
 2054	0x5177	具 (<CJK Ideograph>)
 2055	0x611A	愚 (<CJK Ideograph>)
 2056	0x865E	虞 (<CJK Ideograph>)
 2057	0x55B0	喰 (<CJK Ideograph>)
 2058	0x7A7A	空 (<CJK Ideograph>)
 2059	0x5076	偶 (<CJK Ideograph>)
 2060	0x5BD3	寓 (<CJK Ideograph>)
 2061	0x9047	遇 (<CJK Ideograph>)
 2062	0x9685	隅 (<CJK Ideograph>)
 2063	0x4E32	串 (<CJK Ideograph>)
 2064	0x6ADB	櫛 (<CJK Ideograph>)
 2065	0x91E7	釧 (<CJK Ideograph>)
 2066	0x5C51	屑 (<CJK Ideograph>)
 2067	0x5C48	屈 (<CJK Ideograph>)
"#

/-- encoding_tables/whatwg/index-jis0208.txt:1272-1459 -/
noncomputable def index11 : List Text := lines! r#" 2068	0x6398	掘 (<CJK Ideograph>)
 2069	0x7A9F	窟 (<CJK Ideograph>)
 2070	0x6C93	沓 (<CJK Ideograph>)
 2071	0x9774	靴 (<CJK Ideograph>)
 2072	0x8F61	轡 (<CJK Ideograph>)
 2073	0x7AAA	窪 (<CJK Ideograph>)
 2074	0x718A	熊 (<CJK Ideograph>)
 2075	0x9688	隈 (<CJK Ideograph>)
 2076	0x7C82	粂 (<CJK Ideograph>)
 2077	0x6817	栗 (<CJK Ideograph>)
 2078	0x7E70	繰 (<CJK Ideograph>)
 2079	0x6851	桑 (<CJK Ideograph>)
 2080	0x936C	鍬 (<CJK Ideograph>)
 2081	0x52F2	勲 (<CJK Ideograph>)
 2082	0x541B	君 (<CJK Ideograph>)
 2083	0x85AB	薫 (<CJK Ideograph>)
 2084	0x8A13	訓 (<CJK Ideograph>)
 2085	0x7FA4	群 (<CJK Ideograph>)
 2086	0x8ECD	軍 (<CJK Ideograph>)
 2087	0x90E1	郡 (<CJK Ideograph>)
 2088	0x5366	卦 (<CJK Ideograph>)
 2089	0x8888	袈 (<CJK Ideograph>)
 2090	0x7941	祁 (<CJK Ideograph>)
 2091	0x4FC2	係 (<CJK Ideograph>)
 2092	0x50BE	傾 (<CJK Ideograph>)
 2093	0x5211	刑 (<CJK Ideograph>)
 2094	0x5144	兄 (<CJK Ideograph>)
 2095	0x5553	啓 (<CJK Ideograph>)
 2096	0x572D	圭 (<CJK Ideograph>)
 2097	0x73EA	珪 (<CJK Ideograph>)
 2098	0x578B	型 (<CJK Ideograph>)
 2099	0x5951	契 (<CJK Ideograph>)
 2100	0x5F62	形 (<CJK Ideograph>)
 2101	0x5F84	径 (<CJK Ideograph>)
 2102	0x6075	恵 (<CJK Ideograph>)
 2103	0x6176	慶 (<CJK Ideograph>)
 2104	0x6167	慧 (<CJK Ideograph>)
 2105	0x61A9	憩 (<CJK Ideograph>)
 2106	0x63B2	掲 (<CJK Ideograph>)
 2107	0x643A	携 (<CJK Ideograph>)
 2108	0x656C	敬 (<CJK Ideograph>)
 2109	0x666F	景 (<CJK Ideograph>)
 2110	0x6842	桂 (<CJK Ideograph>)
 2111	0x6E13	渓 (<CJK Ideograph>)
 2112	0x7566	畦 (<CJK Ideograph>)
 2113	0x7A3D	稽 (<CJK Ideograph>)
 2114	0x7CFB	系 (<CJK Ideograph>)
 2115	0x7D4C	経 (<CJK Ideograph>)
 2116	0x7D99	継 (<CJK Ideograph>)
 2117	0x7E4B	繋 (<CJK Ideograph>)
 2118	0x7F6B	罫 (<CJK Ideograph>)
 2119	0x830E	茎 (<CJK Ideograph>)
 2120	0x834A	荊 (<CJK Ideograph>)
 2121	0x86CD	蛍 (<CJK Ideograph>)
 2122	0x8A08	計 (<CJK Ideograph>)
 2123	0x8A63	詣 (<CJK Ideograph>)
 2124	0x8B66	警 (<CJK Ideograph>)
 2125	0x8EFD	軽 (<CJK Ideograph>)
 2126	0x981A	頚 (<CJK Ideograph>)
 2127	0x9D8F	鶏 (<CJK Ideograph>)
 2128	0x82B8	芸 (<CJK Ideograph>)
 2129	0x8FCE	迎 (<CJK Ideograph>)
 2130	0x9BE8	鯨 (<CJK Ideograph>)
 2131	0x5287	劇 (<CJK Ideograph>)
 2132	0x621F	戟 (<CJK Ideograph>)
 2133	0x6483	撃 (<CJK Ideograph>)
 2134	0x6FC0	激 (<CJK Ideograph>)
 2135	0x9699	隙 (<CJK Ideograph>)
 2136	0x6841	桁 (<CJK Ideograph>)
 2137	0x5091	傑 (<CJK Ideograph>)
 2138	0x6B20	欠 (<CJK Ideograph>)
 2139	0x6C7A	決 (<CJK Ideograph>)
 2140	0x6F54	潔 (<CJK Ideograph>)
 2141	0x7A74	穴 (<CJK Ideograph>)
 2142	0x7D50	結 (<CJK Ideograph>)
 2143	0x8840	血 (<CJK Ideograph>)
 2144	0x8A23	訣 (<CJK Ideograph>)
 2145	0x6708	月 (<CJK Ideograph>)
 2146	0x4EF6	件 (<CJK Ideograph>)
 2147	0x5039	倹 (<CJK Ideograph>)
 2148	0x5026	倦 (<CJK Ideograph>)
 2149	0x5065	健 (<CJK Ideograph>)
 2150	0x517C	兼 (<CJK Ideograph>)
 2151	0x5238	券 (<CJK Ideograph>)
 2152	0x5263	剣 (<CJK Ideograph>)
 2153	0x55A7	喧 (<CJK Ideograph>)
 2154	0x570F	圏 (<CJK Ideograph>)
 2155	0x5805	堅 (<CJK Ideograph>)
 2156	0x5ACC	嫌 (<CJK Ideograph>)
 2157	0x5EFA	建 (<CJK Ideograph>)
 2158	0x61B2	憲 (<CJK Ideograph>)
 2159	0x61F8	懸 (<CJK Ideograph>)
 2160	0x62F3	拳 (<CJK Ideograph>)
 2161	0x6372	捲 (<CJK Ideograph>)
 2162	0x691C	検 (<CJK Ideograph>)
 2163	0x6A29	権 (<CJK Ideograph>)
 2164	0x727D	牽 (<CJK Ideograph>)
 2165	0x72AC	犬 (<CJK Ideograph>)
 2166	0x732E	献 (<CJK Ideograph>)
 2167	0x7814	研 (<CJK Ideograph>)
 2168	0x786F	硯 (<CJK Ideograph>)
 2169	0x7D79	絹 (<CJK Ideograph>)
 2170	0x770C	県 (<CJK Ideograph>)
 2171	0x80A9	肩 (<CJK Ideograph>)
 2172	0x898B	見 (<CJK Ideograph>)
 2173	0x8B19	謙 (<CJK Ideograph>)
 2174	0x8CE2	賢 (<CJK Ideograph>)
 2175	0x8ED2	軒 (<CJK Ideograph>)
 2176	0x9063	遣 (<CJK Ideograph>)
 2177	0x9375	鍵 (<CJK Ideograph>)
 2178	0x967A	険 (<CJK Ideograph>)
 2179	0x9855	顕 (<CJK Ideograph>)
 2180	0x9A13	験 (<CJK Ideograph>)
 2181	0x9E78	鹸 (<CJK Ideograph>)
 2182	0x5143	元 (<CJK Ideograph>)
 2183	0x539F	原 (<CJK Ideograph>)
 2184	0x53B3	厳 (<CJK Ideograph>)
 2185	0x5E7B	幻 (<CJK Ideograph>)
 2186	0x5F26	弦 (<CJK Ideograph>)
 2187	0x6E1B	減 (<CJK Ideograph>)
 2188	0x6E90	源 (<CJK Ideograph>)
 2189	0x7384	玄 (<CJK Ideograph>)
 2190	0x73FE	現 (<CJK Ideograph>)
 2191	0x7D43	絃 (<CJK Ideograph>)
 2192	0x8237	舷 (<CJK Ideograph>)
 2193	0x8A00	言 (<CJK Ideograph>)
 2194	0x8AFA	諺 (<CJK Ideograph>)
 2195	0x9650	限 (<CJK Ideograph>)
 2196	0x4E4E	乎 (<CJK Ideograph>)
 2197	0x500B	個 (<CJK Ideograph>)
 2198	0x53E4	古 (<CJK Ideograph>)
 2199	0x547C	呼 (<CJK Ideograph>)
 2200	0x56FA	固 (<CJK Ideograph>)
 2201	0x59D1	姑 (<CJK Ideograph>)
 2202	0x5B64	孤 (<CJK Ideograph>)
 2203	0x5DF1	己 (<CJK Ideograph>)
 2204	0x5EAB	庫 (<CJK Ideograph>)
 2205	0x5F27	弧 (<CJK Ideograph>)
 2206	0x6238	戸 (<CJK Ideograph>)
 2207	0x6545	故 (<CJK Ideograph>)
 2208	0x67AF	枯 (<CJK Ideograph>)
 2209	0x6E56	湖 (<CJK Ideograph>)
 2210	0x72D0	狐 (<CJK Ideograph>)
 2211	0x7CCA	糊 (<CJK Ideograph>)
 2212	0x88B4	袴 (<CJK Ideograph>)
 2213	0x80A1	股 (<CJK Ideograph>)
 2214	0x80E1	胡 (<CJK Ideograph>)
 2215	0x83F0	菰 (<CJK Ideograph>)
 2216	0x864E	虎 (<CJK Ideograph>)
 2217	0x8A87	誇 (<CJK Ideograph>)
 2218	0x8DE8	跨 (<CJK Ideograph>)
 2219	0x9237	鈷 (<CJK Ideograph>)
 2220	0x96C7	雇 (<CJK Ideograph>)
 2221	0x9867	顧 (<CJK Ideograph>)
 2222	0x9F13	鼓 (<CJK Ideograph>)
 2223	0x4E94	五 (<CJK Ideograph>)
 2224	0x4E92	互 (<CJK Ideograph>)
 2225	0x4F0D	伍 (<CJK Ideograph>)
 2226	0x5348	午 (<CJK Ideograph>)
 2227	0x5449	呉 (<CJK Ideograph>)
 2228	0x543E	吾 (<CJK Ideograph>)
 2229	0x5A2F	娯 (<CJK Ideograph>)
 2230	0x5F8C	後 (<CJK Ideograph>)
 2231	0x5FA1	御 (<CJK Ideograph>)
 2232	0x609F	悟 (<CJK Ideograph>)
 2233	0x68A7	梧 (<CJK Ideograph>)
 2234	0x6A8E	檎 (<CJK Ideograph>)
 2235	0x745A	瑚 (<CJK Ideograph>)
 2236	0x7881	碁 (<CJK Ideograph>)
 2237	0x8A9E	語 (<CJK Ideograph>)
 2238	0x8AA4	誤 (<CJK Ideograph>)
 2239	0x8B77	護 (<CJK Ideograph>)
 2240	0x9190	醐 (<CJK Ideograph>)
 2241	0x4E5E	乞 (<CJK Ideograph>)
 2242	0x9BC9	鯉 (<CJK Ideograph>)
 2243	0x4EA4	交 (<CJK Ideograph>)
 2244	0x4F7C	佼 (<CJK Ideograph>)
 2245	0x4FAF	侯 (<CJK Ideograph>)
 2246	0x5019	候 (<CJK Ideograph>)
 2247	0x5016	倖 (<CJK Ideograph>)
 2248	0x5149	光 (<CJK Ideograph>)
 2249	0x516C	公 (<CJK Ideograph>)
 2250	0x529F	功 (<CJK Ideograph>)
 2251	0x52B9	効 (<CJK Ideograph>)
 2252	0x52FE	勾 (<CJK Ideograph>)
 2253	0x539A	厚 (<CJK Ideograph>)
 2254	0x53E3	口 (<CJK Ideograph>)
 2255	0x5411	向 (<CJK Ideograph>)
"#

/-- encoding_tables/whatwg/index-jis0208.txt:1460-1647 -/
noncomputable def index12 : List Text := lines! r#" 2256	0x540E	后 (<CJK Ideograph>)
 2257	0x5589	喉 (<CJK Ideograph>)
 2258	0x5751	坑 (<CJK Ideograph>)
 2259	0x57A2	垢 (<CJK Ideograph>)
 2260	0x597D	好 (<CJK Ideograph>)
 2261	0x5B54	孔 (<CJK Ideograph>)
 2262	0x5B5D	孝 (<CJK Ideograph>)
 2263	0x5B8F	宏 (<CJK Ideograph>)
 2264	0x5DE5	工 (<CJK Ideograph>)
 2265	0x5DE7	巧 (<CJK Ideograph>)
 2266	0x5DF7	巷 (<CJK Ideograph>)
 2267	0x5E78	幸 (<CJK Ideograph>)
 2268	0x5E83	広 (<CJK Ideograph>)
 2269	0x5E9A	庚 (<CJK Ideograph>)
 2270	0x5EB7	康 (<CJK Ideograph>)
 2271	0x5F18	弘 (<CJK Ideograph>)
 2272	0x6052	恒 (<CJK Ideograph>)
 2273	0x614C	慌 (<CJK Ideograph>)
 2274	0x6297	抗 (<CJK Ideograph>)
 2275	0x62D8	拘 (<CJK Ideograph>)
 2276	0x63A7	控 (<CJK Ideograph>)
 2277	0x653B	攻 (<CJK Ideograph>)
 2278	0x6602	昂 (<CJK Ideograph>)
 2279	0x6643	晃 (<CJK Ideograph>)
 2280	0x66F4	更 (<CJK Ideograph>)
 2281	0x676D	杭 (<CJK Ideograph>)
 2282	0x6821	校 (<CJK Ideograph>)
 2283	0x6897	梗 (<CJK Ideograph>)
 2284	0x69CB	構 (<CJK Ideograph>)
 2285	0x6C5F	江 (<CJK Ideograph>)
 2286	0x6D2A	洪 (<CJK Ideograph>)
 2287	0x6D69	浩 (<CJK Ideograph>)
 2288	0x6E2F	港 (<CJK Ideograph>)
 2289	0x6E9D	溝 (<CJK Ideograph>)
 2290	0x7532	甲 (<CJK Ideograph>)
 2291	0x7687	皇 (<CJK Ideograph>)
 2292	0x786C	硬 (<CJK Ideograph>)
 2293	0x7A3F	稿 (<CJK Ideograph>)
 2294	0x7CE0	糠 (<CJK Ideograph>)
 2295	0x7D05	紅 (<CJK Ideograph>)
 2296	0x7D18	紘 (<CJK Ideograph>)
 2297	0x7D5E	絞 (<CJK Ideograph>)
 2298	0x7DB1	綱 (<CJK Ideograph>)
 2299	0x8015	耕 (<CJK Ideograph>)
 2300	0x8003	考 (<CJK Ideograph>)
 2301	0x80AF	肯 (<CJK Ideograph>)
 2302	0x80B1	肱 (<CJK Ideograph>)
 2303	0x8154	腔 (<CJK Ideograph>)
 2304	0x818F	膏 (<CJK Ideograph>)
 2305	0x822A	航 (<CJK Ideograph>)
 2306	0x8352	荒 (<CJK Ideograph>)
 2307	0x884C	行 (<CJK Ideograph>)
 2308	0x8861	衡 (<CJK Ideograph>)
 2309	0x8B1B	講 (<CJK Ideograph>)
 2310	0x8CA2	貢 (<CJK Ideograph>)
 2311	0x8CFC	購 (<CJK Ideograph>)
 2312	0x90CA	郊 (<CJK Ideograph>)
 2313	0x9175	酵 (<CJK Ideograph>)
 2314	0x9271	鉱 (<CJK Ideograph>)
 2315	0x783F	砿 (<CJK Ideograph>)
 2316	0x92FC	鋼 (<CJK Ideograph>)
 2317	0x95A4	閤 (<CJK Ideograph>)
 2318	0x964D	降 (<CJK Ideograph>)
 2319	0x9805	項 (<CJK Ideograph>)
 2320	0x9999	香 (<CJK Ideograph>)
 2321	0x9AD8	高 (<CJK Ideograph>)
 2322	0x9D3B	鴻 (<CJK Ideograph>)
 2323	0x525B	剛 (<CJK Ideograph>)
 2324	0x52AB	劫 (<CJK Ideograph>)
 2325	0x53F7	号 (<CJK Ideograph>)
 2326	0x5408	合 (<CJK Ideograph>)
 2327	0x58D5	壕 (<CJK Ideograph>)
 2328	0x62F7	拷 (<CJK Ideograph>)
 2329	0x6FE0	濠 (<CJK Ideograph>)
 2330	0x8C6A	豪 (<CJK Ideograph>)
 2331	0x8F5F	轟 (<CJK Ideograph>)
 2332	0x9EB9	麹 (<CJK Ideograph>)
 2333	0x514B	克 (<CJK Ideograph>)
 2334	0x523B	刻 (<CJK Ideograph>)
 2335	0x544A	告 (<CJK Ideograph>)
 2336	0x56FD	国 (<CJK Ideograph>)
 2337	0x7A40	穀 (<CJK Ideograph>)
 2338	0x9177	酷 (<CJK Ideograph>)
 2339	0x9D60	鵠 (<CJK Ideograph>)
 2340	0x9ED2	黒 (<CJK Ideograph>)
 2341	0x7344	獄 (<CJK Ideograph>)
 2342	0x6F09	漉 (<CJK Ideograph>)
 2343	0x8170	腰 (<CJK Ideograph>)
 2344	0x7511	甑 (<CJK Ideograph>)
 2345	0x5FFD	忽 (<CJK Ideograph>)
 2346	0x60DA	惚 (<CJK Ideograph>)
 2347	0x9AA8	骨 (<CJK Ideograph>)
 2348	0x72DB	狛 (<CJK Ideograph>)
 2349	0x8FBC	込 (<CJK Ideograph>)
 2350	0x6B64	此 (<CJK Ideograph>)
 2351	0x9803	頃 (<CJK Ideograph>)
 2352	0x4ECA	今 (<CJK Ideograph>)
 2353	0x56F0	困 (<CJK Ideograph>)
 2354	0x5764	坤 (<CJK Ideograph>)
 2355	0x58BE	墾 (<CJK Ideograph>)
 2356	0x5A5A	婚 (<CJK Ideograph>)
 2357	0x6068	恨 (<CJK Ideograph>)
 2358	0x61C7	懇 (<CJK Ideograph>)
 2359	0x660F	昏 (<CJK Ideograph>)
 2360	0x6606	昆 (<CJK Ideograph>)
 2361	0x6839	根 (<CJK Ideograph>)
 2362	0x68B1	梱 (<CJK Ideograph>)
 2363	0x6DF7	混 (<CJK Ideograph>)
 2364	0x75D5	痕 (<CJK Ideograph>)
 2365	0x7D3A	紺 (<CJK Ideograph>)
 2366	0x826E	艮 (<CJK Ideograph>)
 2367	0x9B42	魂 (<CJK Ideograph>)
 2368	0x4E9B	些 (<CJK Ideograph>)
 2369	0x4F50	佐 (<CJK Ideograph>)
 2370	0x53C9	叉 (<CJK Ideograph>)
 2371	0x5506	唆 (<CJK Ideograph>)
 2372	0x5D6F	嵯 (<CJK Ideograph>)
 2373	0x5DE6	左 (<CJK Ideograph>)
 2374	0x5DEE	差 (<CJK Ideograph>)
 2375	0x67FB	査 (<CJK Ideograph>)
 2376	0x6C99	沙 (<CJK Ideograph>)
 2377	0x7473	瑳 (<CJK Ideograph>)
 2378	0x7802	砂 (<CJK Ideograph>)
 2379	0x8A50	詐 (<CJK Ideograph>)
 2380	0x9396	鎖 (<CJK Ideograph>)
 2381	0x88DF	裟 (<CJK Ideograph>)
 2382	0x5750	坐 (<CJK Ideograph>)
 2383	0x5EA7	座 (<CJK Ideograph>)
 2384	0x632B	挫 (<CJK Ideograph>)
 2385	0x50B5	債 (<CJK Ideograph>)
 2386	0x50AC	催 (<CJK Ideograph>)
 2387	0x518D	再 (<CJK Ideograph>)
 2388	0x6700	最 (<CJK Ideograph>)
 2389	0x54C9	哉 (<CJK Ideograph>)
 2390	0x585E	塞 (<CJK Ideograph>)
 2391	0x59BB	妻 (<CJK Ideograph>)
 2392	0x5BB0	宰 (<CJK Ideograph>)
 2393	0x5F69	彩 (<CJK Ideograph>)
 2394	0x624D	才 (<CJK Ideograph>)
 2395	0x63A1	採 (<CJK Ideograph>)
 2396	0x683D	栽 (<CJK Ideograph>)
 2397	0x6B73	歳 (<CJK Ideograph>)
 2398	0x6E08	済 (<CJK Ideograph>)
 2399	0x707D	災 (<CJK Ideograph>)
 2400	0x91C7	采 (<CJK Ideograph>)
 2401	0x7280	犀 (<CJK Ideograph>)
 2402	0x7815	砕 (<CJK Ideograph>)
 2403	0x7826	砦 (<CJK Ideograph>)
 2404	0x796D	祭 (<CJK Ideograph>)
 2405	0x658E	斎 (<CJK Ideograph>)
 2406	0x7D30	細 (<CJK Ideograph>)
 2407	0x83DC	菜 (<CJK Ideograph>)
 2408	0x88C1	裁 (<CJK Ideograph>)
 2409	0x8F09	載 (<CJK Ideograph>)
 2410	0x969B	際 (<CJK Ideograph>)
 2411	0x5264	剤 (<CJK Ideograph>)
 2412	0x5728	在 (<CJK Ideograph>)
 2413	0x6750	材 (<CJK Ideograph>)
 2414	0x7F6A	罪 (<CJK Ideograph>)
 2415	0x8CA1	財 (<CJK Ideograph>)
 2416	0x51B4	冴 (<CJK Ideograph>)
 2417	0x5742	坂 (<CJK Ideograph>)
 2418	0x962A	阪 (<CJK Ideograph>)
 2419	0x583A	堺 (<CJK Ideograph>)
 2420	0x698A	榊 (<CJK Ideograph>)
 2421	0x80B4	肴 (<CJK Ideograph>)
 2422	0x54B2	咲 (<CJK Ideograph>)
 2423	0x5D0E	崎 (<CJK Ideograph>)
 2424	0x57FC	埼 (<CJK Ideograph>)
 2425	0x7895	碕 (<CJK Ideograph>)
 2426	0x9DFA	鷺 (<CJK Ideograph>)
 2427	0x4F5C	作 (<CJK Ideograph>)
 2428	0x524A	削 (<CJK Ideograph>)
 2429	0x548B	咋 (<CJK Ideograph>)
 2430	0x643E	搾 (<CJK Ideograph>)
 2431	0x6628	昨 (<CJK Ideograph>)
 2432	0x6714	朔 (<CJK Ideograph>)
 2433	0x67F5	柵 (<CJK Ideograph>)
 2434	0x7A84	窄 (<CJK Ideograph>)
 2435	0x7B56	策 (<CJK Ideograph>)
 2436	0x7D22	索 (<CJK Ideograph>)
 2437	0x932F	錯 (<CJK Ideograph>)
 2438	0x685C	桜 (<CJK Ideograph>)
 2439	0x9BAD	鮭 (<CJK Ideograph>)
 2440	0x7B39	笹 (<CJK Ideograph>)
 2441	0x5319	匙 (<CJK Ideograph>)
 2442	0x518A	冊 (<CJK Ideograph>)
 2443	0x5237	刷 (<CJK Ideograph>)
"#

/-- encoding_tables/whatwg/index-jis0208.txt:1648-1835 -/
noncomputable def index13 : List Text := lines! r#" 2444	0x5BDF	察 (<CJK Ideograph>)
 2445	0x62F6	拶 (<CJK Ideograph>)
 2446	0x64AE	撮 (<CJK Ideograph>)
 2447	0x64E6	擦 (<CJK Ideograph>)
 2448	0x672D	札 (<CJK Ideograph>)
 2449	0x6BBA	殺 (<CJK Ideograph>)
 2450	0x85A9	薩 (<CJK Ideograph>)
 2451	0x96D1	雑 (<CJK Ideograph>)
 2452	0x7690	皐 (<CJK Ideograph>)
 2453	0x9BD6	鯖 (<CJK Ideograph>)
 2454	0x634C	捌 (<CJK Ideograph>)
 2455	0x9306	錆 (<CJK Ideograph>)
 2456	0x9BAB	鮫 (<CJK Ideograph>)
 2457	0x76BF	皿 (<CJK Ideograph>)
 2458	0x6652	晒 (<CJK Ideograph>)
 2459	0x4E09	三 (<CJK Ideograph>)
 2460	0x5098	傘 (<CJK Ideograph>)
 2461	0x53C2	参 (<CJK Ideograph>)
 2462	0x5C71	山 (<CJK Ideograph>)
 2463	0x60E8	惨 (<CJK Ideograph>)
 2464	0x6492	撒 (<CJK Ideograph>)
 2465	0x6563	散 (<CJK Ideograph>)
 2466	0x685F	桟 (<CJK Ideograph>)
 2467	0x71E6	燦 (<CJK Ideograph>)
 2468	0x73CA	珊 (<CJK Ideograph>)
 2469	0x7523	産 (<CJK Ideograph>)
 2470	0x7B97	算 (<CJK Ideograph>)
 2471	0x7E82	纂 (<CJK Ideograph>)
 2472	0x8695	蚕 (<CJK Ideograph>)
 2473	0x8B83	讃 (<CJK Ideograph>)
 2474	0x8CDB	賛 (<CJK Ideograph>)
 2475	0x9178	酸 (<CJK Ideograph>)
 2476	0x9910	餐 (<CJK Ideograph>)
 2477	0x65AC	斬 (<CJK Ideograph>)
 2478	0x66AB	暫 (<CJK Ideograph>)
 2479	0x6B8B	残 (<CJK Ideograph>)
 2480	0x4ED5	仕 (<CJK Ideograph>)
 2481	0x4ED4	仔 (<CJK Ideograph>)
 2482	0x4F3A	伺 (<CJK Ideograph>)
 2483	0x4F7F	使 (<CJK Ideograph>)
 2484	0x523A	刺 (<CJK Ideograph>)
 2485	0x53F8	司 (<CJK Ideograph>)
 2486	0x53F2	史 (<CJK Ideograph>)
 2487	0x55E3	嗣 (<CJK Ideograph>)
 2488	0x56DB	四 (<CJK Ideograph>)
 2489	0x58EB	士 (<CJK Ideograph>)
 2490	0x59CB	始 (<CJK Ideograph>)
 2491	0x59C9	姉 (<CJK Ideograph>)
 2492	0x59FF	姿 (<CJK Ideograph>)
 2493	0x5B50	子 (<CJK Ideograph>)
 2494	0x5C4D	屍 (<CJK Ideograph>)
 2495	0x5E02	市 (<CJK Ideograph>)
 2496	0x5E2B	師 (<CJK Ideograph>)
 2497	0x5FD7	志 (<CJK Ideograph>)
 2498	0x601D	思 (<CJK Ideograph>)
 2499	0x6307	指 (<CJK Ideograph>)
 2500	0x652F	支 (<CJK Ideograph>)
 2501	0x5B5C	孜 (<CJK Ideograph>)
 2502	0x65AF	斯 (<CJK Ideograph>)
 2503	0x65BD	施 (<CJK Ideograph>)
 2504	0x65E8	旨 (<CJK Ideograph>)
 2505	0x679D	枝 (<CJK Ideograph>)
 2506	0x6B62	止 (<CJK Ideograph>)
 2507	0x6B7B	死 (<CJK Ideograph>)
 2508	0x6C0F	氏 (<CJK Ideograph>)
 2509	0x7345	獅 (<CJK Ideograph>)
 2510	0x7949	祉 (<CJK Ideograph>)
 2511	0x79C1	私 (<CJK Ideograph>)
 2512	0x7CF8	糸 (<CJK Ideograph>)
 2513	0x7D19	紙 (<CJK Ideograph>)
 2514	0x7D2B	紫 (<CJK Ideograph>)
 2515	0x80A2	肢 (<CJK Ideograph>)
 2516	0x8102	脂 (<CJK Ideograph>)
 2517	0x81F3	至 (<CJK Ideograph>)
 2518	0x8996	視 (<CJK Ideograph>)
 2519	0x8A5E	詞 (<CJK Ideograph>)
 2520	0x8A69	詩 (<CJK Ideograph>)
 2521	0x8A66	試 (<CJK Ideograph>)
 2522	0x8A8C	誌 (<CJK Ideograph>)
 2523	0x8AEE	諮 (<CJK Ideograph>)
 2524	0x8CC7	資 (<CJK Ideograph>)
 2525	0x8CDC	賜 (<CJK Ideograph>)
 2526	0x96CC	雌 (<CJK Ideograph>)
 2527	0x98FC	飼 (<CJK Ideograph>)
 2528	0x6B6F	歯 (<CJK Ideograph>)
 2529	0x4E8B	事 (<CJK Ideograph>)
 2530	0x4F3C	似 (<CJK Ideograph>)
 2531	0x4F8D	侍 (<CJK Ideograph>)
 2532	0x5150	児 (<CJK Ideograph>)
 2533	0x5B57	字 (<CJK Ideograph>)
 2534	0x5BFA	寺 (<CJK Ideograph>)
 2535	0x6148	慈 (<CJK Ideograph>)
 2536	0x6301	持 (<CJK Ideograph>)
 2537	0x6642	時 (<CJK Ideograph>)
 2538	0x6B21	次 (<CJK Ideograph>)
 2539	0x6ECB	滋 (<CJK Ideograph>)
 2540	0x6CBB	治 (<CJK Ideograph>)
 2541	0x723E	爾 (<CJK Ideograph>)
 2542	0x74BD	璽 (<CJK Ideograph>)
 2543	0x75D4	痔 (<CJK Ideograph>)
 2544	0x78C1	磁 (<CJK Ideograph>)
 2545	0x793A	示 (<CJK Ideograph>)
 2546	0x800C	而 (<CJK Ideograph>)
 2547	0x8033	耳 (<CJK Ideograph>)
 2548	0x81EA	自 (<CJK Ideograph>)
 2549	0x8494	蒔 (<CJK Ideograph>)
 2550	0x8F9E	辞 (<CJK Ideograph>)
 2551	0x6C50	汐 (<CJK Ideograph>)
 2552	0x9E7F	鹿 (<CJK Ideograph>)
 2553	0x5F0F	式 (<CJK Ideograph>)
 2554	0x8B58	識 (<CJK Ideograph>)
 2555	0x9D2B	鴫 (<CJK Ideograph>)
 2556	0x7AFA	竺 (<CJK Ideograph>)
 2557	0x8EF8	軸 (<CJK Ideograph>)
 2558	0x5B8D	宍 (<CJK Ideograph>)
 2559	0x96EB	雫 (<CJK Ideograph>)
 2560	0x4E03	七 (<CJK Ideograph>)
 2561	0x53F1	叱 (<CJK Ideograph>)
 2562	0x57F7	執 (<CJK Ideograph>)
 2563	0x5931	失 (<CJK Ideograph>)
 2564	0x5AC9	嫉 (<CJK Ideograph>)
 2565	0x5BA4	室 (<CJK Ideograph>)
 2566	0x6089	悉 (<CJK Ideograph>)
 2567	0x6E7F	湿 (<CJK Ideograph>)
 2568	0x6F06	漆 (<CJK Ideograph>)
 2569	0x75BE	疾 (<CJK Ideograph>)
 2570	0x8CEA	質 (<CJK Ideograph>)
 2571	0x5B9F	実 (<CJK Ideograph>)
 2572	0x8500	蔀 (<CJK Ideograph>)
 2573	0x7BE0	篠 (<CJK Ideograph>)
 2574	0x5072	偲 (<CJK Ideograph>)
 2575	0x67F4	柴 (<CJK Ideograph>)
 2576	0x829D	芝 (<CJK Ideograph>)
 2577	0x5C61	屡 (<CJK Ideograph>)
 2578	0x854A	蕊 (<CJK Ideograph>)
 2579	0x7E1E	縞 (<CJK Ideograph>)
 2580	0x820E	舎 (<CJK Ideograph>)
 2581	0x5199	写 (<CJK Ideograph>)
 2582	0x5C04	射 (<CJK Ideograph>)
 2583	0x6368	捨 (<CJK Ideograph>)
 2584	0x8D66	赦 (<CJK Ideograph>)
 2585	0x659C	斜 (<CJK Ideograph>)
 2586	0x716E	煮 (<CJK Ideograph>)
 2587	0x793E	社 (<CJK Ideograph>)
 2588	0x7D17	紗 (<CJK Ideograph>)
 2589	0x8005	者 (<CJK Ideograph>)
 2590	0x8B1D	謝 (<CJK Ideograph>)
 2591	0x8ECA	車 (<CJK Ideograph>)
 2592	0x906E	遮 (<CJK Ideograph>)
 2593	0x86C7	蛇 (<CJK Ideograph>)
 2594	0x90AA	邪 (<CJK Ideograph>)
 2595	0x501F	借 (<CJK Ideograph>)
 2596	0x52FA	勺 (<CJK Ideograph>)
 2597	0x5C3A	尺 (<CJK Ideograph>)
 2598	0x6753	杓 (<CJK Ideograph>)
 2599	0x707C	灼 (<CJK Ideograph>)
 2600	0x7235	爵 (<CJK Ideograph>)
 2601	0x914C	酌 (<CJK Ideograph>)
 2602	0x91C8	釈 (<CJK Ideograph>)
 2603	0x932B	錫 (<CJK Ideograph>)
 2604	0x82E5	若 (<CJK Ideograph>)
 2605	0x5BC2	寂 (<CJK Ideograph>)
 2606	0x5F31	弱 (<CJK Ideograph>)
 2607	0x60F9	惹 (<CJK Ideograph>)
 2608	0x4E3B	主 (<CJK Ideograph>)
 2609	0x53D6	取 (<CJK Ideograph>)
 2610	0x5B88	守 (<CJK Ideograph>)
 2611	0x624B	手 (<CJK Ideograph>)
 2612	0x6731	朱 (<CJK Ideograph>)
 2613	0x6B8A	殊 (<CJK Ideograph>)
 2614	0x72E9	狩 (<CJK Ideograph>)
 2615	0x73E0	珠 (<CJK Ideograph>)
 2616	0x7A2E	種 (<CJK Ideograph>)
 2617	0x816B	腫 (<CJK Ideograph>)
 2618	0x8DA3	趣 (<CJK Ideograph>)
 2619	0x9152	酒 (<CJK Ideograph>)
 2620	0x9996	首 (<CJK Ideograph>)
 2621	0x5112	儒 (<CJK Ideograph>)
 2622	0x53D7	受 (<CJK Ideograph>)
 2623	0x546A	呪 (<CJK Ideograph>)
 2624	0x5BFF	寿 (<CJK Ideograph>)
 2625	0x6388	授 (<CJK Ideograph>)
 2626	0x6A39	樹 (<CJK Ideograph>)
 2627	0x7DAC	綬 (<CJK Ideograph>)
 2628	0x9700	需 (<CJK Ideograph>)
 2629	0x56DA	囚 (<CJK Ideograph>)
 2630	0x53CE	収 (<CJK Ideograph>)
 2631	0x5468	周 (<CJK Ideograph>)
"#

/-- encoding_tables/whatwg/index-jis0208.txt:1836-2023 -/
noncomputable def index14 : List Text := lines! r#" 2632	0x5B97	宗 (<CJK Ideograph>)
 2633	0x5C31	就 (<CJK Ideograph>)
 2634	0x5DDE	州 (<CJK Ideograph>)
 2635	0x4FEE	修 (<CJK Ideograph>)
 2636	0x6101	愁 (<CJK Ideograph>)
 2637	0x62FE	拾 (<CJK Ideograph>)
 2638	0x6D32	洲 (<CJK Ideograph>)
 2639	0x79C0	秀 (<CJK Ideograph>)
 2640	0x79CB	秋 (<CJK Ideograph>)
 2641	0x7D42	終 (<CJK Ideograph>)
 2642	0x7E4D	繍 (<CJK Ideograph>)
 2643	0x7FD2	習 (<CJK Ideograph>)
 2644	0x81ED	臭 (<CJK Ideograph>)
 2645	0x821F	舟 (<CJK Ideograph>)
 2646	0x8490	蒐 (<CJK Ideograph>)
 2647	0x8846	衆 (<CJK Ideograph>)
 2648	0x8972	襲 (<CJK Ideograph>)
 2649	0x8B90	讐 (<CJK Ideograph>)
 2650	0x8E74	蹴 (<CJK Ideograph>)
 2651	0x8F2F	輯 (<CJK Ideograph>)
 2652	0x9031	週 (<CJK Ideograph>)
 2653	0x914B	酋 (<CJK Ideograph>)
 2654	0x916C	酬 (<CJK Ideograph>)
 2655	0x96C6	集 (<CJK Ideograph>)
 2656	0x919C	醜 (<CJK Ideograph>)
 2657	0x4EC0	什 (<CJK Ideograph>)
 2658	0x4F4F	住 (<CJK Ideograph>)
 2659	0x5145	充 (<CJK Ideograph>)
 2660	0x5341	十 (<CJK Ideograph>)
 2661	0x5F93	従 (<CJK Ideograph>)
 2662	0x620E	戎 (<CJK Ideograph>)
 2663	0x67D4	柔 (<CJK Ideograph>)
 2664	0x6C41	汁 (<CJK Ideograph>)
 2665	0x6E0B	渋 (<CJK Ideograph>)
 2666	0x7363	獣 (<CJK Ideograph>)
 2667	0x7E26	縦 (<CJK Ideograph>)
 2668	0x91CD	重 (<CJK Ideograph>)
 2669	0x9283	銃 (<CJK Ideograph>)
 2670	0x53D4	叔 (<CJK Ideograph>)
 2671	0x5919	夙 (<CJK Ideograph>)
 2672	0x5BBF	宿 (<CJK Ideograph>)
 2673	0x6DD1	淑 (<CJK Ideograph>)
 2674	0x795D	祝 (<CJK Ideograph>)
 2675	0x7E2E	縮 (<CJK Ideograph>)
 2676	0x7C9B	粛 (<CJK Ideograph>)
 2677	0x587E	塾 (<CJK Ideograph>)
 2678	0x719F	熟 (<CJK Ideograph>)
 2679	0x51FA	出 (<CJK Ideograph>)
 2680	0x8853	術 (<CJK Ideograph>)
 2681	0x8FF0	述 (<CJK Ideograph>)
 2682	0x4FCA	俊 (<CJK Ideograph>)
 2683	0x5CFB	峻 (<CJK Ideograph>)
 2684	0x6625	春 (<CJK Ideograph>)
 2685	0x77AC	瞬 (<CJK Ideograph>)
 2686	0x7AE3	竣 (<CJK Ideograph>)
 2687	0x821C	舜 (<CJK Ideograph>)
 2688	0x99FF	駿 (<CJK Ideograph>)
 2689	0x51C6	准 (<CJK Ideograph>)
 2690	0x5FAA	循 (<CJK Ideograph>)
 2691	0x65EC	旬 (<CJK Ideograph>)
 2692	0x696F	楯 (<CJK Ideograph>)
 2693	0x6B89	殉 (<CJK Ideograph>)
 2694	0x6DF3	淳 (<CJK Ideograph>)
 2695	0x6E96	準 (<CJK Ideograph>)
 2696	0x6F64	潤 (<CJK Ideograph>)
 2697	0x76FE	盾 (<CJK Ideograph>)
 2698	0x7D14	純 (<CJK Ideograph>)
 2699	0x5DE1	巡 (<CJK Ideograph>)
 2700	0x9075	遵 (<CJK Ideograph>)
 2701	0x9187	醇 (<CJK Ideograph>)
 2702	0x9806	順 (<CJK Ideograph>)
 2703	0x51E6	処 (<CJK Ideograph>)
 2704	0x521D	初 (<CJK Ideograph>)
 2705	0x6240	所 (<CJK Ideograph>)
 2706	0x6691	暑 (<CJK Ideograph>)
 2707	0x66D9	曙 (<CJK Ideograph>)
 2708	0x6E1A	渚 (<CJK Ideograph>)
 2709	0x5EB6	庶 (<CJK Ideograph>)
 2710	0x7DD2	緒 (<CJK Ideograph>)
 2711	0x7F72	署 (<CJK Ideograph>)
 2712	0x66F8	書 (<CJK Ideograph>)
 2713	0x85AF	薯 (<CJK Ideograph>)
 2714	0x85F7	藷 (<CJK Ideograph>)
 2715	0x8AF8	諸 (<CJK Ideograph>)
 2716	0x52A9	助 (<CJK Ideograph>)
 2717	0x53D9	叙 (<CJK Ideograph>)
 2718	0x5973	女 (<CJK Ideograph>)
 2719	0x5E8F	序 (<CJK Ideograph>)
 2720	0x5F90	徐 (<CJK Ideograph>)
 2721	0x6055	恕 (<CJK Ideograph>)
 2722	0x92E4	鋤 (<CJK Ideograph>)
 2723	0x9664	除 (<CJK Ideograph>)
 2724	0x50B7	傷 (<CJK Ideograph>)
 2725	0x511F	償 (<CJK Ideograph>)
 2726	0x52DD	勝 (<CJK Ideograph>)
 2727	0x5320	匠 (<CJK Ideograph>)
 2728	0x5347	升 (<CJK Ideograph>)
 2729	0x53EC	召 (<CJK Ideograph>)
 2730	0x54E8	哨 (<CJK Ideograph>)
 2731	0x5546	商 (<CJK Ideograph>)
 2732	0x5531	唱 (<CJK Ideograph>)
 2733	0x5617	嘗 (<CJK Ideograph>)
 2734	0x5968	奨 (<CJK Ideograph>)
 2735	0x59BE	妾 (<CJK Ideograph>)
 2736	0x5A3C	娼 (<CJK Ideograph>)
 2737	0x5BB5	宵 (<CJK Ideograph>)
 2738	0x5C06	将 (<CJK Ideograph>)
 2739	0x5C0F	小 (<CJK Ideograph>)
 2740	0x5C11	少 (<CJK Ideograph>)
 2741	0x5C1A	尚 (<CJK Ideograph>)
 2742	0x5E84	庄 (<CJK Ideograph>)
 2743	0x5E8A	床 (<CJK Ideograph>)
 2744	0x5EE0	廠 (<CJK Ideograph>)
 2745	0x5F70	彰 (<CJK Ideograph>)
 2746	0x627F	承 (<CJK Ideograph>)
 2747	0x6284	抄 (<CJK Ideograph>)
 2748	0x62DB	招 (<CJK Ideograph>)
 2749	0x638C	掌 (<CJK Ideograph>)
 2750	0x6377	捷 (<CJK Ideograph>)
 2751	0x6607	昇 (<CJK Ideograph>)
 2752	0x660C	昌 (<CJK Ideograph>)
 2753	0x662D	昭 (<CJK Ideograph>)
 2754	0x6676	晶 (<CJK Ideograph>)
 2755	0x677E	松 (<CJK Ideograph>)
 2756	0x68A2	梢 (<CJK Ideograph>)
 2757	0x6A1F	樟 (<CJK Ideograph>)
 2758	0x6A35	樵 (<CJK Ideograph>)
 2759	0x6CBC	沼 (<CJK Ideograph>)
 2760	0x6D88	消 (<CJK Ideograph>)
 2761	0x6E09	渉 (<CJK Ideograph>)
 2762	0x6E58	湘 (<CJK Ideograph>)
 2763	0x713C	焼 (<CJK Ideograph>)
 2764	0x7126	焦 (<CJK Ideograph>)
 2765	0x7167	照 (<CJK Ideograph>)
 2766	0x75C7	症 (<CJK Ideograph>)
 2767	0x7701	省 (<CJK Ideograph>)
 2768	0x785D	硝 (<CJK Ideograph>)
 2769	0x7901	礁 (<CJK Ideograph>)
 2770	0x7965	祥 (<CJK Ideograph>)
 2771	0x79F0	称 (<CJK Ideograph>)
 2772	0x7AE0	章 (<CJK Ideograph>)
 2773	0x7B11	笑 (<CJK Ideograph>)
 2774	0x7CA7	粧 (<CJK Ideograph>)
 2775	0x7D39	紹 (<CJK Ideograph>)
 2776	0x8096	肖 (<CJK Ideograph>)
 2777	0x83D6	菖 (<CJK Ideograph>)
 2778	0x848B	蒋 (<CJK Ideograph>)
 2779	0x8549	蕉 (<CJK Ideograph>)
 2780	0x885D	衝 (<CJK Ideograph>)
 2781	0x88F3	裳 (<CJK Ideograph>)
 2782	0x8A1F	訟 (<CJK Ideograph>)
 2783	0x8A3C	証 (<CJK Ideograph>)
 2784	0x8A54	詔 (<CJK Ideograph>)
 2785	0x8A73	詳 (<CJK Ideograph>)
 2786	0x8C61	象 (<CJK Ideograph>)
 2787	0x8CDE	賞 (<CJK Ideograph>)
 2788	0x91A4	醤 (<CJK Ideograph>)
 2789	0x9266	鉦 (<CJK Ideograph>)
 2790	0x937E	鍾 (<CJK Ideograph>)
 2791	0x9418	鐘 (<CJK Ideograph>)
 2792	0x969C	障 (<CJK Ideograph>)
 2793	0x9798	鞘 (<CJK Ideograph>)
 2794	0x4E0A	上 (<CJK Ideograph>)
 2795	0x4E08	丈 (<CJK Ideograph>)
 2796	0x4E1E	丞 (<CJK Ideograph>)
 2797	0x4E57	乗 (<CJK Ideograph>)
 2798	0x5197	冗 (<CJK Ideograph>)
 2799	0x5270	剰 (<CJK Ideograph>)
 2800	0x57CE	城 (<CJK Ideograph>)
 2801	0x5834	場 (<CJK Ideograph>)
 2802	0x58CC	壌 (<CJK Ideograph>)
 2803	0x5B22	嬢 (<CJK Ideograph>)
 2804	0x5E38	常 (<CJK Ideograph>)
 2805	0x60C5	情 (<CJK Ideograph>)
 2806	0x64FE	擾 (<CJK Ideograph>)
 2807	0x6761	条 (<CJK Ideograph>)
 2808	0x6756	杖 (<CJK Ideograph>)
 2809	0x6D44	浄 (<CJK Ideograph>)
 2810	0x72B6	状 (<CJK Ideograph>)
 2811	0x7573	畳 (<CJK Ideograph>)
 2812	0x7A63	穣 (<CJK Ideograph>)
 2813	0x84B8	蒸 (<CJK Ideograph>)
 2814	0x8B72	譲 (<CJK Ideograph>)
 2815	0x91B8	醸 (<CJK Ideograph>)
 2816	0x9320	錠 (<CJK Ideograph>)
 2817	0x5631	嘱 (<CJK Ideograph>)
 2818	0x57F4	埴 (<CJK Ideograph>)
 2819	0x98FE	飾 (<CJK Ideograph>)
"#

/-- encoding_tables/whatwg/index-jis0208.txt:2024-2211 -/
noncomputable def index15 : List Text := lines! r#" 2820	0x62ED	拭 (<CJK Ideograph>)
 2821	0x690D	植 (<CJK Ideograph>)
 2822	0x6B96	殖 (<CJK Ideograph>)
 2823	0x71ED	燭 (<CJK Ideograph>)
 2824	0x7E54	織 (<CJK Ideograph>)
 2825	0x8077	職 (<CJK Ideograph>)
 2826	0x8272	色 (<CJK Ideograph>)
 2827	0x89E6	触 (<CJK Ideograph>)
 2828	0x98DF	食 (<CJK Ideograph>)
 2829	0x8755	蝕 (<CJK Ideograph>)
 2830	0x8FB1	辱 (<CJK Ideograph>)
 2831	0x5C3B	尻 (<CJK Ideograph>)
 2832	0x4F38	伸 (<CJK Ideograph>)
 2833	0x4FE1	信 (<CJK Ideograph>)
 2834	0x4FB5	侵 (<CJK Ideograph>)
 2835	0x5507	唇 (<CJK Ideograph>)
 2836	0x5A20	娠 (<CJK Ideograph>)
 2837	0x5BDD	寝 (<CJK Ideograph>)
 2838	0x5BE9	審 (<CJK Ideograph>)
 2839	0x5FC3	心 (<CJK Ideograph>)
 2840	0x614E	慎 (<CJK Ideograph>)
 2841	0x632F	振 (<CJK Ideograph>)
 2842	0x65B0	新 (<CJK Ideograph>)
 2843	0x664B	晋 (<CJK Ideograph>)
 2844	0x68EE	森 (<CJK Ideograph>)
 2845	0x699B	榛 (<CJK Ideograph>)
 2846	0x6D78	浸 (<CJK Ideograph>)
 2847	0x6DF1	深 (<CJK Ideograph>)
 2848	0x7533	申 (<CJK Ideograph>)
 2849	0x75B9	疹 (<CJK Ideograph>)
 2850	0x771F	真 (<CJK Ideograph>)
 2851	0x795E	神 (<CJK Ideograph>)
 2852	0x79E6	秦 (<CJK Ideograph>)
 2853	0x7D33	紳 (<CJK Ideograph>)
 2854	0x81E3	臣 (<CJK Ideograph>)
 2855	0x82AF	芯 (<CJK Ideograph>)
 2856	0x85AA	薪 (<CJK Ideograph>)
 2857	0x89AA	親 (<CJK Ideograph>)
 2858	0x8A3A	診 (<CJK Ideograph>)
 2859	0x8EAB	身 (<CJK Ideograph>)
 2860	0x8F9B	辛 (<CJK Ideograph>)
 2861	0x9032	進 (<CJK Ideograph>)
 2862	0x91DD	針 (<CJK Ideograph>)
 2863	0x9707	震 (<CJK Ideograph>)
 2864	0x4EBA	人 (<CJK Ideograph>)
 2865	0x4EC1	仁 (<CJK Ideograph>)
 2866	0x5203	刃 (<CJK Ideograph>)
 2867	0x5875	塵 (<CJK Ideograph>)
 2868	0x58EC	壬 (<CJK Ideograph>)
 2869	0x5C0B	尋 (<CJK Ideograph>)
 2870	0x751A	甚 (<CJK Ideograph>)
 2871	0x5C3D	尽 (<CJK Ideograph>)
 2872	0x814E	腎 (<CJK Ideograph>)
 2873	0x8A0A	訊 (<CJK Ideograph>)
 2874	0x8FC5	迅 (<CJK Ideograph>)
 2875	0x9663	陣 (<CJK Ideograph>)
 2876	0x976D	靭 (<CJK Ideograph>)
 2877	0x7B25	笥 (<CJK Ideograph>)
 2878	0x8ACF	諏 (<CJK Ideograph>)
 2879	0x9808	須 (<CJK Ideograph>)
 2880	0x9162	酢 (<CJK Ideograph>)
 2881	0x56F3	図 (<CJK Ideograph>)
 2882	0x53A8	厨 (<CJK Ideograph>)
 2883	0x9017	逗 (<CJK Ideograph>)
 2884	0x5439	吹 (<CJK Ideograph>)
 2885	0x5782	垂 (<CJK Ideograph>)
 2886	0x5E25	帥 (<CJK Ideograph>)
 2887	0x63A8	推 (<CJK Ideograph>)
 2888	0x6C34	水 (<CJK Ideograph>)
 2889	0x708A	炊 (<CJK Ideograph>)
 2890	0x7761	睡 (<CJK Ideograph>)
 2891	0x7C8B	粋 (<CJK Ideograph>)
 2892	0x7FE0	翠 (<CJK Ideograph>)
 2893	0x8870	衰 (<CJK Ideograph>)
 2894	0x9042	遂 (<CJK Ideograph>)
 2895	0x9154	酔 (<CJK Ideograph>)
 2896	0x9310	錐 (<CJK Ideograph>)
 2897	0x9318	錘 (<CJK Ideograph>)
 2898	0x968F	随 (<CJK Ideograph>)
 2899	0x745E	瑞 (<CJK Ideograph>)
 2900	0x9AC4	髄 (<CJK Ideograph>)
 2901	0x5D07	崇 (<CJK Ideograph>)
 2902	0x5D69	嵩 (<CJK Ideograph>)
 2903	0x6570	数 (<CJK Ideograph>)
 2904	0x67A2	枢 (<CJK Ideograph>)
 2905	0x8DA8	趨 (<CJK Ideograph>)
 2906	0x96DB	雛 (<CJK Ideograph>)
 2907	0x636E	据 (<CJK Ideograph>)
 2908	0x6749	杉 (<CJK Ideograph>)
 2909	0x6919	椙 (<CJK Ideograph>)
 2910	0x83C5	菅 (<CJK Ideograph>)
 2911	0x9817	頗 (<CJK Ideograph>)
 2912	0x96C0	雀 (<CJK Ideograph>)
 2913	0x88FE	裾 (<CJK Ideograph>)
 2914	0x6F84	澄 (<CJK Ideograph>)
 2915	0x647A	摺 (<CJK Ideograph>)
 2916	0x5BF8	寸 (<CJK Ideograph>)
 2917	0x4E16	世 (<CJK Ideograph>)
 2918	0x702C	瀬 (<CJK Ideograph>)
 2919	0x755D	畝 (<CJK Ideograph>)
 2920	0x662F	是 (<CJK Ideograph>)
 2921	0x51C4	凄 (<CJK Ideograph>)
 2922	0x5236	制 (<CJK Ideograph>)
 2923	0x52E2	勢 (<CJK Ideograph>)
 2924	0x59D3	姓 (<CJK Ideograph>)
 2925	0x5F81	征 (<CJK Ideograph>)
 2926	0x6027	性 (<CJK Ideograph>)
 2927	0x6210	成 (<CJK Ideograph>)
 2928	0x653F	政 (<CJK Ideograph>)
 2929	0x6574	整 (<CJK Ideograph>)
 2930	0x661F	星 (<CJK Ideograph>)
 2931	0x6674	晴 (<CJK Ideograph>)
 2932	0x68F2	棲 (<CJK Ideograph>)
 2933	0x6816	栖 (<CJK Ideograph>)
 2934	0x6B63	正 (<CJK Ideograph>)
 2935	0x6E05	清 (<CJK Ideograph>)
 2936	0x7272	牲 (<CJK Ideograph>)
 2937	0x751F	生 (<CJK Ideograph>)
 2938	0x76DB	盛 (<CJK Ideograph>)
 2939	0x7CBE	精 (<CJK Ideograph>)
 2940	0x8056	聖 (<CJK Ideograph>)
 2941	0x58F0	声 (<CJK Ideograph>)
 2942	0x88FD	製 (<CJK Ideograph>)
 2943	0x897F	西 (<CJK Ideograph>)
 2944	0x8AA0	誠 (<CJK Ideograph>)
 2945	0x8A93	誓 (<CJK Ideograph>)
 2946	0x8ACB	請 (<CJK Ideograph>)
 2947	0x901D	逝 (<CJK Ideograph>)
 2948	0x9192	醒 (<CJK Ideograph>)
 2949	0x9752	青 (<CJK Ideograph>)
 2950	0x9759	静 (<CJK Ideograph>)
 2951	0x6589	斉 (<CJK Ideograph>)
 2952	0x7A0E	税 (<CJK Ideograph>)
 2953	0x8106	脆 (<CJK Ideograph>)
 2954	0x96BB	隻 (<CJK Ideograph>)
 2955	0x5E2D	席 (<CJK Ideograph>)
 2956	0x60DC	惜 (<CJK Ideograph>)
 2957	0x621A	戚 (<CJK Ideograph>)
 2958	0x65A5	斥 (<CJK Ideograph>)
 2959	0x6614	昔 (<CJK Ideograph>)
 2960	0x6790	析 (<CJK Ideograph>)
 2961	0x77F3	石 (<CJK Ideograph>)
 2962	0x7A4D	積 (<CJK Ideograph>)
 2963	0x7C4D	籍 (<CJK Ideograph>)
 2964	0x7E3E	績 (<CJK Ideograph>)
 2965	0x810A	脊 (<CJK Ideograph>)
 2966	0x8CAC	責 (<CJK Ideograph>)
 2967	0x8D64	赤 (<CJK Ideograph>)
 2968	0x8DE1	跡 (<CJK Ideograph>)
 2969	0x8E5F	蹟 (<CJK Ideograph>)
 2970	0x78A9	碩 (<CJK Ideograph>)
 2971	0x5207	切 (<CJK Ideograph>)
 2972	0x62D9	拙 (<CJK Ideograph>)
 2973	0x63A5	接 (<CJK Ideograph>)
 2974	0x6442	摂 (<CJK Ideograph>)
 2975	0x6298	折 (<CJK Ideograph>)
 2976	0x8A2D	設 (<CJK Ideograph>)
 2977	0x7A83	窃 (<CJK Ideograph>)
 2978	0x7BC0	節 (<CJK Ideograph>)
 2979	0x8AAC	説 (<CJK Ideograph>)
 2980	0x96EA	雪 (<CJK Ideograph>)
 2981	0x7D76	絶 (<CJK Ideograph>)
 2982	0x820C	舌 (<CJK Ideograph>)
 2983	0x8749	蝉 (<CJK Ideograph>)
 2984	0x4ED9	仙 (<CJK Ideograph>)
 2985	0x5148	先 (<CJK Ideograph>)
 2986	0x5343	千 (<CJK Ideograph>)
 2987	0x5360	占 (<CJK Ideograph>)
 2988	0x5BA3	宣 (<CJK Ideograph>)
 2989	0x5C02	専 (<CJK Ideograph>)
 2990	0x5C16	尖 (<CJK Ideograph>)
 2991	0x5DDD	川 (<CJK Ideograph>)
 2992	0x6226	戦 (<CJK Ideograph>)
 2993	0x6247	扇 (<CJK Ideograph>)
 2994	0x64B0	撰 (<CJK Ideograph>)
 2995	0x6813	栓 (<CJK Ideograph>)
 2996	0x6834	栴 (<CJK Ideograph>)
 2997	0x6CC9	泉 (<CJK Ideograph>)
 2998	0x6D45	浅 (<CJK Ideograph>)
 2999	0x6D17	洗 (<CJK Ideograph>)
 3000	0x67D3	染 (<CJK Ideograph>)
 3001	0x6F5C	潜 (<CJK Ideograph>)
 3002	0x714E	煎 (<CJK Ideograph>)
 3003	0x717D	煽 (<CJK Ideograph>)
 3004	0x65CB	旋 (<CJK Ideograph>)
 3005	0x7A7F	穿 (<CJK Ideograph>)
 3006	0x7BAD	箭 (<CJK Ideograph>)
 3007	0x7DDA	線 (<CJK Ideograph>)
"#

/-- encoding_tables/whatwg/index-jis0208.txt:2212-2399 -/
noncomputable def index16 : List Text := lines! r#" 3008	0x7E4A	繊 (<CJK Ideograph>)
 3009	0x7FA8	羨 (<CJK Ideograph>)
 3010	0x817A	腺 (<CJK Ideograph>)
 3011	0x821B	舛 (<CJK Ideograph>)
 3012	0x8239	船 (<CJK Ideograph>)
 3013	0x85A6	薦 (<CJK Ideograph>)
 3014	0x8A6E	詮 (<CJK Ideograph>)
 3015	0x8CCE	賎 (<CJK Ideograph>)
 3016	0x8DF5	践 (<CJK Ideograph>)
 3017	0x9078	選 (<CJK Ideograph>)
 3018	0x9077	遷 (<CJK Ideograph>)
 3019	0x92AD	銭 (<CJK Ideograph>)
 3020	0x9291	銑 (<CJK Ideograph>)
 3021	0x9583	閃 (<CJK Ideograph>)
 3022	0x9BAE	鮮 (<CJK Ideograph>)
 3023	0x524D	前 (<CJK Ideograph>)
 3024	0x5584	善 (<CJK Ideograph>)
 3025	0x6F38	漸 (<CJK Ideograph>)
 3026	0x7136	然 (<CJK Ideograph>)
 3027	0x5168	全 (<CJK Ideograph>)
 3028	0x7985	禅 (<CJK Ideograph>)
 3029	0x7E55	繕 (<CJK Ideograph>)
 3030	0x81B3	膳 (<CJK Ideograph>)
 3031	0x7CCE	糎 (<CJK Ideograph>)
 3032	0x564C	噌 (<CJK Ideograph>)
 3033	0x5851	塑 (<CJK Ideograph>)
 3034	0x5CA8	岨 (<CJK Ideograph>)
 3035	0x63AA	措 (<CJK Ideograph>)
 3036	0x66FE	曾 (<CJK Ideograph>)
 3037	0x66FD	曽 (<CJK Ideograph>)
 3038	0x695A	楚 (<CJK Ideograph>)
 3039	0x72D9	狙 (<CJK Ideograph>)
 3040	0x758F	疏 (<CJK Ideograph>)
 3041	0x758E	疎 (<CJK Ideograph>)
 3042	0x790E	礎 (<CJK Ideograph>)
 3043	0x7956	祖 (<CJK Ideograph>)
 3044	0x79DF	租 (<CJK Ideograph>)
 3045	0x7C97	粗 (<CJK Ideograph>)
 3046	0x7D20	素 (<CJK Ideograph>)
 3047	0x7D44	組 (<CJK Ideograph>)
 3048	0x8607	蘇 (<CJK Ideograph>)
 3049	0x8A34	訴 (<CJK Ideograph>)
 3050	0x963B	阻 (<CJK Ideograph>)
 3051	0x9061	遡 (<CJK Ideograph>)
 3052	0x9F20	鼠 (<CJK Ideograph>)
 3053	0x50E7	僧 (<CJK Ideograph>)
 3054	0x5275	創 (<CJK Ideograph>)
 3055	0x53CC	双 (<CJK Ideograph>)
 3056	0x53E2	叢 (<CJK Ideograph>)
 3057	0x5009	倉 (<CJK Ideograph>)
 3058	0x55AA	喪 (<CJK Ideograph>)
 3059	0x58EE	壮 (<CJK Ideograph>)
 3060	0x594F	奏 (<CJK Ideograph>)
 3061	0x723D	爽 (<CJK Ideograph>)
 3062	0x5B8B	宋 (<CJK Ideograph>)
 3063	0x5C64	層 (<CJK Ideograph>)
 3064	0x531D	匝 (<CJK Ideograph>)
 3065	0x60E3	惣 (<CJK Ideograph>)
 3066	0x60F3	想 (<CJK Ideograph>)
 3067	0x635C	捜 (<CJK Ideograph>)
 3068	0x6383	掃 (<CJK Ideograph>)
 3069	0x633F	挿 (<CJK Ideograph>)
 3070	0x63BB	掻 (<CJK Ideograph>)
 3071	0x64CD	操 (<CJK Ideograph>)
 3072	0x65E9	早 (<CJK Ideograph>)
 3073	0x66F9	曹 (<CJK Ideograph>)
 3074	0x5DE3	巣 (<CJK Ideograph>)
 3075	0x69CD	槍 (<CJK Ideograph>)
 3076	0x69FD	槽 (<CJK Ideograph>)
 3077	0x6F15	漕 (<CJK Ideograph>)
 3078	0x71E5	燥 (<CJK Ideograph>)
 3079	0x4E89	争 (<CJK Ideograph>)
 3080	0x75E9	痩 (<CJK Ideograph>)
 3081	0x76F8	相 (<CJK Ideograph>)
 3082	0x7A93	窓 (<CJK Ideograph>)
 3083	0x7CDF	糟 (<CJK Ideograph>)
 3084	0x7DCF	総 (<CJK Ideograph>)
 3085	0x7D9C	綜 (<CJK Ideograph>)
 3086	0x8061	聡 (<CJK Ideograph>)
 3087	0x8349	草 (<CJK Ideograph>)
 3088	0x8358	荘 (<CJK Ideograph>)
 3089	0x846C	葬 (<CJK Ideograph>)
 3090	0x84BC	蒼 (<CJK Ideograph>)
 3091	0x85FB	藻 (<CJK Ideograph>)
 3092	0x88C5	装 (<CJK Ideograph>)
 3093	0x8D70	走 (<CJK Ideograph>)
 3094	0x9001	送 (<CJK Ideograph>)
 3095	0x906D	遭 (<CJK Ideograph>)
 3096	0x9397	鎗 (<CJK Ideograph>)
 3097	0x971C	霜 (<CJK Ideograph>)
 3098	0x9A12	騒 (<CJK Ideograph>)
 3099	0x50CF	像 (<CJK Ideograph>)
 3100	0x5897	増 (<CJK Ideograph>)
 3101	0x618E	憎 (<CJK Ideograph>)
 3102	0x81D3	臓 (<CJK Ideograph>)
 3103	0x8535	蔵 (<CJK Ideograph>)
 3104	0x8D08	贈 (<CJK Ideograph>)
 3105	0x9020	造 (<CJK Ideograph>)
 3106	0x4FC3	促 (<CJK Ideograph>)
 3107	0x5074	側 (<CJK Ideograph>)
 3108	0x5247	則 (<CJK Ideograph>)
 3109	0x5373	即 (<CJK Ideograph>)
 3110	0x606F	息 (<CJK Ideograph>)
 3111	0x6349	捉 (<CJK Ideograph>)
 3112	0x675F	束 (<CJK Ideograph>)
 3113	0x6E2C	測 (<CJK Ideograph>)
 3114	0x8DB3	足 (<CJK Ideograph>)
 3115	0x901F	速 (<CJK Ideograph>)
 3116	0x4FD7	俗 (<CJK Ideograph>)
 3117	0x5C5E	属 (<CJK Ideograph>)
 3118	0x8CCA	賊 (<CJK Ideograph>)
 3119	0x65CF	族 (<CJK Ideograph>)
 3120	0x7D9A	続 (<CJK Ideograph>)
 3121	0x5352	卒 (<CJK Ideograph>)
 3122	0x8896	袖 (<CJK Ideograph>)
 3123	0x5176	其 (<CJK Ideograph>)
 3124	0x63C3	揃 (<CJK Ideograph>)
 3125	0x5B58	存 (<CJK Ideograph>)
 3126	0x5B6B	孫 (<CJK Ideograph>)
 3127	0x5C0A	尊 (<CJK Ideograph>)
 3128	0x640D	損 (<CJK Ideograph>)
 3129	0x6751	村 (<CJK Ideograph>)
 3130	0x905C	遜 (<CJK Ideograph>)
 3131	0x4ED6	他 (<CJK Ideograph>)
 3132	0x591A	多 (<CJK Ideograph>)
 3133	0x592A	太 (<CJK Ideograph>)
 3134	0x6C70	汰 (<CJK Ideograph>)
 3135	0x8A51	詑 (<CJK Ideograph>)
 3136	0x553E	唾 (<CJK Ideograph>)
 3137	0x5815	堕 (<CJK Ideograph>)
 3138	0x59A5	妥 (<CJK Ideograph>)
 3139	0x60F0	惰 (<CJK Ideograph>)
 3140	0x6253	打 (<CJK Ideograph>)
 3141	0x67C1	柁 (<CJK Ideograph>)
 3142	0x8235	舵 (<CJK Ideograph>)
 3143	0x6955	楕 (<CJK Ideograph>)
 3144	0x9640	陀 (<CJK Ideograph>)
 3145	0x99C4	駄 (<CJK Ideograph>)
 3146	0x9A28	騨 (<CJK Ideograph>)
 3147	0x4F53	体 (<CJK Ideograph>)
 3148	0x5806	堆 (<CJK Ideograph>)
 3149	0x5BFE	対 (<CJK Ideograph>)
 3150	0x8010	耐 (<CJK Ideograph>)
 3151	0x5CB1	岱 (<CJK Ideograph>)
 3152	0x5E2F	帯 (<CJK Ideograph>)
 3153	0x5F85	待 (<CJK Ideograph>)
 3154	0x6020	怠 (<CJK Ideograph>)
 3155	0x614B	態 (<CJK Ideograph>)
 3156	0x6234	戴 (<CJK Ideograph>)
 3157	0x66FF	替 (<CJK Ideograph>)
 3158	0x6CF0	泰 (<CJK Ideograph>)
 3159	0x6EDE	滞 (<CJK Ideograph>)
 3160	0x80CE	胎 (<CJK Ideograph>)
 3161	0x817F	腿 (<CJK Ideograph>)
 3162	0x82D4	苔 (<CJK Ideograph>)
 3163	0x888B	袋 (<CJK Ideograph>)
 3164	0x8CB8	貸 (<CJK Ideograph>)
 3165	0x9000	退 (<CJK Ideograph>)
 3166	0x902E	逮 (<CJK Ideograph>)
 3167	0x968A	隊 (<CJK Ideograph>)
 3168	0x9EDB	黛 (<CJK Ideograph>)
 3169	0x9BDB	鯛 (<CJK Ideograph>)
 3170	0x4EE3	代 (<CJK Ideograph>)
 3171	0x53F0	台 (<CJK Ideograph>)
 3172	0x5927	大 (<CJK Ideograph>)
 3173	0x7B2C	第 (<CJK Ideograph>)
 3174	0x918D	醍 (<CJK Ideograph>)
 3175	0x984C	題 (<CJK Ideograph>)
 3176	0x9DF9	鷹 (<CJK Ideograph>)
 3177	0x6EDD	滝 (<CJK Ideograph>)
 3178	0x7027	瀧 (<CJK Ideograph>)
 3179	0x5353	卓 (<CJK Ideograph>)
 3180	0x5544	啄 (<CJK Ideograph>)
 3181	0x5B85	宅 (<CJK Ideograph>)
 3182	0x6258	托 (<CJK Ideograph>)
 3183	0x629E	択 (<CJK Ideograph>)
 3184	0x62D3	拓 (<CJK Ideograph>)
 3185	0x6CA2	沢 (<CJK Ideograph>)
 3186	0x6FEF	濯 (<CJK Ideograph>)
 3187	0x7422	琢 (<CJK Ideograph>)
 3188	0x8A17	託 (<CJK Ideograph>)
 3189	0x9438	鐸 (<CJK Ideograph>)
 3190	0x6FC1	濁 (<CJK Ideograph>)
 3191	0x8AFE	諾 (<CJK Ideograph>)
 3192	0x8338	茸 (<CJK Ideograph>)
 3193	0x51E7	凧 (<CJK Ideograph>)
 3194	0x86F8	蛸 (<CJK Ideograph>)
 3195	0x53EA	只 (<CJK Ideograph>)
"#

/-- encoding_tables/whatwg/index-jis0208.txt:2400-2587 -/
noncomputable def index17 : List Text := lines! r#" 3196	0x53E9	叩 (<CJK Ideograph>)
 3197	0x4F46	但 (<CJK Ideograph>)
 3198	0x9054	達 (<CJK Ideograph>)
 3199	0x8FB0	辰 (<CJK Ideograph>)
 3200	0x596A	奪 (<CJK Ideograph>)
 3201	0x8131	脱 (<CJK Ideograph>)
 3202	0x5DFD	巽 (<CJK Ideograph>)
 3203	0x7AEA	竪 (<CJK Ideograph>)
 3204	0x8FBF	辿 (<CJK Ideograph>)
 3205	0x68DA	棚 (<CJK Ideograph>)
 3206	0x8C37	谷 (<CJK Ideograph>)
 3207	0x72F8	狸 (<CJK Ideograph>)
 3208	0x9C48	鱈 (<CJK Ideograph>)
 3209	0x6A3D	樽 (<CJK Ideograph>)
 3210	0x8AB0	誰 (<CJK Ideograph>)
 3211	0x4E39	丹 (<CJK Ideograph>)
 3212	0x5358	単 (<CJK Ideograph>)
 3213	0x5606	嘆 (<CJK Ideograph>)
 3214	0x5766	坦 (<CJK Ideograph>)
 3215	0x62C5	担 (<CJK Ideograph>)
 3216	0x63A2	探 (<CJK Ideograph>)
 3217	0x65E6	旦 (<CJK Ideograph>)
 3218	0x6B4E	歎 (<CJK Ideograph>)
 3219	0x6DE1	淡 (<CJK Ideograph>)
 3220	0x6E5B	湛 (<CJK Ideograph>)
 3221	0x70AD	炭 (<CJK Ideograph>)
 3222	0x77ED	短 (<CJK Ideograph>)
 3223	0x7AEF	端 (<CJK Ideograph>)
 3224	0x7BAA	箪 (<CJK Ideograph>)
 3225	0x7DBB	綻 (<CJK Ideograph>)
 3226	0x803D	耽 (<CJK Ideograph>)
 3227	0x80C6	胆 (<CJK Ideograph>)
 3228	0x86CB	蛋 (<CJK Ideograph>)
 3229	0x8A95	誕 (<CJK Ideograph>)
 3230	0x935B	鍛 (<CJK Ideograph>)
 3231	0x56E3	団 (<CJK Ideograph>)
 3232	0x58C7	壇 (<CJK Ideograph>)
 3233	0x5F3E	弾 (<CJK Ideograph>)
 3234	0x65AD	断 (<CJK Ideograph>)
 3235	0x6696	暖 (<CJK Ideograph>)
 3236	0x6A80	檀 (<CJK Ideograph>)
 3237	0x6BB5	段 (<CJK Ideograph>)
 3238	0x7537	男 (<CJK Ideograph>)
 3239	0x8AC7	談 (<CJK Ideograph>)
 3240	0x5024	値 (<CJK Ideograph>)
 3241	0x77E5	知 (<CJK Ideograph>)
 3242	0x5730	地 (<CJK Ideograph>)
 3243	0x5F1B	弛 (<CJK Ideograph>)
 3244	0x6065	恥 (<CJK Ideograph>)
 3245	0x667A	智 (<CJK Ideograph>)
 3246	0x6C60	池 (<CJK Ideograph>)
 3247	0x75F4	痴 (<CJK Ideograph>)
 3248	0x7A1A	稚 (<CJK Ideograph>)
 3249	0x7F6E	置 (<CJK Ideograph>)
 3250	0x81F4	致 (<CJK Ideograph>)
 3251	0x8718	蜘 (<CJK Ideograph>)
 3252	0x9045	遅 (<CJK Ideograph>)
 3253	0x99B3	馳 (<CJK Ideograph>)
 3254	0x7BC9	築 (<CJK Ideograph>)
 3255	0x755C	畜 (<CJK Ideograph>)
 3256	0x7AF9	竹 (<CJK Ideograph>)
 3257	0x7B51	筑 (<CJK Ideograph>)
 3258	0x84C4	蓄 (<CJK Ideograph>)
 3259	0x9010	逐 (<CJK Ideograph>)
 3260	0x79E9	秩 (<CJK Ideograph>)
 3261	0x7A92	窒 (<CJK Ideograph>)
 3262	0x8336	茶 (<CJK Ideograph>)
 3263	0x5AE1	嫡 (<CJK Ideograph>)
 3264	0x7740	着 (<CJK Ideograph>)
 3265	0x4E2D	中 (<CJK Ideograph>)
 3266	0x4EF2	仲 (<CJK Ideograph>)
 3267	0x5B99	宙 (<CJK Ideograph>)
 3268	0x5FE0	忠 (<CJK Ideograph>)
 3269	0x62BD	抽 (<CJK Ideograph>)
 3270	0x663C	昼 (<CJK Ideograph>)
 3271	0x67F1	柱 (<CJK Ideograph>)
 3272	0x6CE8	注 (<CJK Ideograph>)
 3273	0x866B	虫 (<CJK Ideograph>)
 3274	0x8877	衷 (<CJK Ideograph>)
 3275	0x8A3B	註 (<CJK Ideograph>)
 3276	0x914E	酎 (<CJK Ideograph>)
 3277	0x92F3	鋳 (<CJK Ideograph>)
 3278	0x99D0	駐 (<CJK Ideograph>)
 3279	0x6A17	樗 (<CJK Ideograph>)
 3280	0x7026	瀦 (<CJK Ideograph>)
 3281	0x732A	猪 (<CJK Ideograph>)
 3282	0x82E7	苧 (<CJK Ideograph>)
 3283	0x8457	著 (<CJK Ideograph>)
 3284	0x8CAF	貯 (<CJK Ideograph>)
 3285	0x4E01	丁 (<CJK Ideograph>)
 3286	0x5146	兆 (<CJK Ideograph>)
 3287	0x51CB	凋 (<CJK Ideograph>)
 3288	0x558B	喋 (<CJK Ideograph>)
 3289	0x5BF5	寵 (<CJK Ideograph>)
 3290	0x5E16	帖 (<CJK Ideograph>)
 3291	0x5E33	帳 (<CJK Ideograph>)
 3292	0x5E81	庁 (<CJK Ideograph>)
 3293	0x5F14	弔 (<CJK Ideograph>)
 3294	0x5F35	張 (<CJK Ideograph>)
 3295	0x5F6B	彫 (<CJK Ideograph>)
 3296	0x5FB4	徴 (<CJK Ideograph>)
 3297	0x61F2	懲 (<CJK Ideograph>)
 3298	0x6311	挑 (<CJK Ideograph>)
 3299	0x66A2	暢 (<CJK Ideograph>)
 3300	0x671D	朝 (<CJK Ideograph>)
 3301	0x6F6E	潮 (<CJK Ideograph>)
 3302	0x7252	牒 (<CJK Ideograph>)
 3303	0x753A	町 (<CJK Ideograph>)
 3304	0x773A	眺 (<CJK Ideograph>)
 3305	0x8074	聴 (<CJK Ideograph>)
 3306	0x8139	脹 (<CJK Ideograph>)
 3307	0x8178	腸 (<CJK Ideograph>)
 3308	0x8776	蝶 (<CJK Ideograph>)
 3309	0x8ABF	調 (<CJK Ideograph>)
 3310	0x8ADC	諜 (<CJK Ideograph>)
 3311	0x8D85	超 (<CJK Ideograph>)
 3312	0x8DF3	跳 (<CJK Ideograph>)
 3313	0x929A	銚 (<CJK Ideograph>)
 3314	0x9577	長 (<CJK Ideograph>)
 3315	0x9802	頂 (<CJK Ideograph>)
 3316	0x9CE5	鳥 (<CJK Ideograph>)
 3317	0x52C5	勅 (<CJK Ideograph>)
 3318	0x6357	捗 (<CJK Ideograph>)
 3319	0x76F4	直 (<CJK Ideograph>)
 3320	0x6715	朕 (<CJK Ideograph>)
 3321	0x6C88	沈 (<CJK Ideograph>)
 3322	0x73CD	珍 (<CJK Ideograph>)
 3323	0x8CC3	賃 (<CJK Ideograph>)
 3324	0x93AE	鎮 (<CJK Ideograph>)
 3325	0x9673	陳 (<CJK Ideograph>)
 3326	0x6D25	津 (<CJK Ideograph>)
 3327	0x589C	墜 (<CJK Ideograph>)
 3328	0x690E	椎 (<CJK Ideograph>)
 3329	0x69CC	槌 (<CJK Ideograph>)
 3330	0x8FFD	追 (<CJK Ideograph>)
 3331	0x939A	鎚 (<CJK Ideograph>)
 3332	0x75DB	痛 (<CJK Ideograph>)
 3333	0x901A	通 (<CJK Ideograph>)
 3334	0x585A	塚 (<CJK Ideograph>)
 3335	0x6802	栂 (<CJK Ideograph>)
 3336	0x63B4	掴 (<CJK Ideograph>)
 3337	0x69FB	槻 (<CJK Ideograph>)
 3338	0x4F43	佃 (<CJK Ideograph>)
 3339	0x6F2C	漬 (<CJK Ideograph>)
 3340	0x67D8	柘 (<CJK Ideograph>)
 3341	0x8FBB	辻 (<CJK Ideograph>)
 3342	0x8526	蔦 (<CJK Ideograph>)
 3343	0x7DB4	綴 (<CJK Ideograph>)
 3344	0x9354	鍔 (<CJK Ideograph>)
 3345	0x693F	椿 (<CJK Ideograph>)
 3346	0x6F70	潰 (<CJK Ideograph>)
 3347	0x576A	坪 (<CJK Ideograph>)
 3348	0x58F7	壷 (<CJK Ideograph>)
 3349	0x5B2C	嬬 (<CJK Ideograph>)
 3350	0x7D2C	紬 (<CJK Ideograph>)
 3351	0x722A	爪 (<CJK Ideograph>)
 3352	0x540A	吊 (<CJK Ideograph>)
 3353	0x91E3	釣 (<CJK Ideograph>)
 3354	0x9DB4	鶴 (<CJK Ideograph>)
 3355	0x4EAD	亭 (<CJK Ideograph>)
 3356	0x4F4E	低 (<CJK Ideograph>)
 3357	0x505C	停 (<CJK Ideograph>)
 3358	0x5075	偵 (<CJK Ideograph>)
 3359	0x5243	剃 (<CJK Ideograph>)
 3360	0x8C9E	貞 (<CJK Ideograph>)
 3361	0x5448	呈 (<CJK Ideograph>)
 3362	0x5824	堤 (<CJK Ideograph>)
 3363	0x5B9A	定 (<CJK Ideograph>)
 3364	0x5E1D	帝 (<CJK Ideograph>)
 3365	0x5E95	底 (<CJK Ideograph>)
 3366	0x5EAD	庭 (<CJK Ideograph>)
 3367	0x5EF7	廷 (<CJK Ideograph>)
 3368	0x5F1F	弟 (<CJK Ideograph>)
 3369	0x608C	悌 (<CJK Ideograph>)
 3370	0x62B5	抵 (<CJK Ideograph>)
 3371	0x633A	挺 (<CJK Ideograph>)
 3372	0x63D0	提 (<CJK Ideograph>)
 3373	0x68AF	梯 (<CJK Ideograph>)
 3374	0x6C40	汀 (<CJK Ideograph>)
 3375	0x7887	碇 (<CJK Ideograph>)
 3376	0x798E	禎 (<CJK Ideograph>)
 3377	0x7A0B	程 (<CJK Ideograph>)
 3378	0x7DE0	締 (<CJK Ideograph>)
 3379	0x8247	艇 (<CJK Ideograph>)
 3380	0x8A02	訂 (<CJK Ideograph>)
 3381	0x8AE6	諦 (<CJK Ideograph>)
 3382	0x8E44	蹄 (<CJK Ideograph>)
 3383	0x9013	逓 (<CJK Ideograph>)
"#

/-- encoding_tables/whatwg/index-jis0208.txt:2588-2775 -/
noncomputable def index18 : List Text := lines! r#" 3384	0x90B8	邸 (<CJK Ideograph>)
 3385	0x912D	鄭 (<CJK Ideograph>)
 3386	0x91D8	釘 (<CJK Ideograph>)
 3387	0x9F0E	鼎 (<CJK Ideograph>)
 3388	0x6CE5	泥 (<CJK Ideograph>)
 3389	0x6458	摘 (<CJK Ideograph>)
 3390	0x64E2	擢 (<CJK Ideograph>)
 3391	0x6575	敵 (<CJK Ideograph>)
 3392	0x6EF4	滴 (<CJK Ideograph>)
 3393	0x7684	的 (<CJK Ideograph>)
 3394	0x7B1B	笛 (<CJK Ideograph>)
 3395	0x9069	適 (<CJK Ideograph>)
 3396	0x93D1	鏑 (<CJK Ideograph>)
 3397	0x6EBA	溺 (<CJK Ideograph>)
 3398	0x54F2	哲 (<CJK Ideograph>)
 3399	0x5FB9	徹 (<CJK Ideograph>)
 3400	0x64A4	撤 (<CJK Ideograph>)
 3401	0x8F4D	轍 (<CJK Ideograph>)
 3402	0x8FED	迭 (<CJK Ideograph>)
 3403	0x9244	鉄 (<CJK Ideograph>)
 3404	0x5178	典 (<CJK Ideograph>)
 3405	0x586B	填 (<CJK Ideograph>)
 3406	0x5929	天 (<CJK Ideograph>)
 3407	0x5C55	展 (<CJK Ideograph>)
 3408	0x5E97	店 (<CJK Ideograph>)
 3409	0x6DFB	添 (<CJK Ideograph>)
 3410	0x7E8F	纏 (<CJK Ideograph>)
 3411	0x751C	甜 (<CJK Ideograph>)
 3412	0x8CBC	貼 (<CJK Ideograph>)
 3413	0x8EE2	転 (<CJK Ideograph>)
 3414	0x985B	顛 (<CJK Ideograph>)
 3415	0x70B9	点 (<CJK Ideograph>)
 3416	0x4F1D	伝 (<CJK Ideograph>)
 3417	0x6BBF	殿 (<CJK Ideograph>)
 3418	0x6FB1	澱 (<CJK Ideograph>)
 3419	0x7530	田 (<CJK Ideograph>)
 3420	0x96FB	電 (<CJK Ideograph>)
 3421	0x514E	兎 (<CJK Ideograph>)
 3422	0x5410	吐 (<CJK Ideograph>)
 3423	0x5835	堵 (<CJK Ideograph>)
 3424	0x5857	塗 (<CJK Ideograph>)
 3425	0x59AC	妬 (<CJK Ideograph>)
 3426	0x5C60	屠 (<CJK Ideograph>)
 3427	0x5F92	徒 (<CJK Ideograph>)
 3428	0x6597	斗 (<CJK Ideograph>)
 3429	0x675C	杜 (<CJK Ideograph>)
 3430	0x6E21	渡 (<CJK Ideograph>)
 3431	0x767B	登 (<CJK Ideograph>)
 3432	0x83DF	菟 (<CJK Ideograph>)
 3433	0x8CED	賭 (<CJK Ideograph>)
 3434	0x9014	途 (<CJK Ideograph>)
 3435	0x90FD	都 (<CJK Ideograph>)
 3436	0x934D	鍍 (<CJK Ideograph>)
 3437	0x7825	砥 (<CJK Ideograph>)
 3438	0x783A	砺 (<CJK Ideograph>)
 3439	0x52AA	努 (<CJK Ideograph>)
 3440	0x5EA6	度 (<CJK Ideograph>)
 3441	0x571F	土 (<CJK Ideograph>)
 3442	0x5974	奴 (<CJK Ideograph>)
 3443	0x6012	怒 (<CJK Ideograph>)
 3444	0x5012	倒 (<CJK Ideograph>)
 3445	0x515A	党 (<CJK Ideograph>)
 3446	0x51AC	冬 (<CJK Ideograph>)
 3447	0x51CD	凍 (<CJK Ideograph>)
 3448	0x5200	刀 (<CJK Ideograph>)
 3449	0x5510	唐 (<CJK Ideograph>)
 3450	0x5854	塔 (<CJK Ideograph>)
 3451	0x5858	塘 (<CJK Ideograph>)
 3452	0x5957	套 (<CJK Ideograph>)
 3453	0x5B95	宕 (<CJK Ideograph>)
 3454	0x5CF6	島 (<CJK Ideograph>)
 3455	0x5D8B	嶋 (<CJK Ideograph>)
 3456	0x60BC	悼 (<CJK Ideograph>)
 3457	0x6295	投 (<CJK Ideograph>)
 3458	0x642D	搭 (<CJK Ideograph>)
 3459	0x6771	東 (<CJK Ideograph>)
 3460	0x6843	桃 (<CJK Ideograph>)
 3461	0x68BC	梼 (<CJK Ideograph>)
 3462	0x68DF	棟 (<CJK Ideograph>)
 3463	0x76D7	盗 (<CJK Ideograph>)
 3464	0x6DD8	淘 (<CJK Ideograph>)
 3465	0x6E6F	湯 (<CJK Ideograph>)
 3466	0x6D9B	涛 (<CJK Ideograph>)
 3467	0x706F	灯 (<CJK Ideograph>)
 3468	0x71C8	燈 (<CJK Ideograph>)
 3469	0x5F53	当 (<CJK Ideograph>)
 3470	0x75D8	痘 (<CJK Ideograph>)
 3471	0x7977	祷 (<CJK Ideograph>)
 3472	0x7B49	等 (<CJK Ideograph>)
 3473	0x7B54	答 (<CJK Ideograph>)
 3474	0x7B52	筒 (<CJK Ideograph>)
 3475	0x7CD6	糖 (<CJK Ideograph>)
 3476	0x7D71	統 (<CJK Ideograph>)
 3477	0x5230	到 (<CJK Ideograph>)
 3478	0x8463	董 (<CJK Ideograph>)
 3479	0x8569	蕩 (<CJK Ideograph>)
 3480	0x85E4	藤 (<CJK Ideograph>)
 3481	0x8A0E	討 (<CJK Ideograph>)
 3482	0x8B04	謄 (<CJK Ideograph>)
 3483	0x8C46	豆 (<CJK Ideograph>)
 3484	0x8E0F	踏 (<CJK Ideograph>)
 3485	0x9003	逃 (<CJK Ideograph>)
 3486	0x900F	透 (<CJK Ideograph>)
 3487	0x9419	鐙 (<CJK Ideograph>)
 3488	0x9676	陶 (<CJK Ideograph>)
 3489	0x982D	頭 (<CJK Ideograph>)
 3490	0x9A30	騰 (<CJK Ideograph>)
 3491	0x95D8	闘 (<CJK Ideograph>)
 3492	0x50CD	働 (<CJK Ideograph>)
 3493	0x52D5	動 (<CJK Ideograph>)
 3494	0x540C	同 (<CJK Ideograph>)
 3495	0x5802	堂 (<CJK Ideograph>)
 3496	0x5C0E	導 (<CJK Ideograph>)
 3497	0x61A7	憧 (<CJK Ideograph>)
 3498	0x649E	撞 (<CJK Ideograph>)
 3499	0x6D1E	洞 (<CJK Ideograph>)
 3500	0x77B3	瞳 (<CJK Ideograph>)
 3501	0x7AE5	童 (<CJK Ideograph>)
 3502	0x80F4	胴 (<CJK Ideograph>)
 3503	0x8404	萄 (<CJK Ideograph>)
 3504	0x9053	道 (<CJK Ideograph>)
 3505	0x9285	銅 (<CJK Ideograph>)
 3506	0x5CE0	峠 (<CJK Ideograph>)
 3507	0x9D07	鴇 (<CJK Ideograph>)
 3508	0x533F	匿 (<CJK Ideograph>)
 3509	0x5F97	得 (<CJK Ideograph>)
 3510	0x5FB3	徳 (<CJK Ideograph>)
 3511	0x6D9C	涜 (<CJK Ideograph>)
 3512	0x7279	特 (<CJK Ideograph>)
 3513	0x7763	督 (<CJK Ideograph>)
 3514	0x79BF	禿 (<CJK Ideograph>)
 3515	0x7BE4	篤 (<CJK Ideograph>)
 3516	0x6BD2	毒 (<CJK Ideograph>)
 3517	0x72EC	独 (<CJK Ideograph>)
 3518	0x8AAD	読 (<CJK Ideograph>)
 3519	0x6803	栃 (<CJK Ideograph>)
 3520	0x6A61	橡 (<CJK Ideograph>)
 3521	0x51F8	凸 (<CJK Ideograph>)
 3522	0x7A81	突 (<CJK Ideograph>)
 3523	0x6934	椴 (<CJK Ideograph>)
 3524	0x5C4A	届 (<CJK Ideograph>)
 3525	0x9CF6	鳶 (<CJK Ideograph>)
 3526	0x82EB	苫 (<CJK Ideograph>)
 3527	0x5BC5	寅 (<CJK Ideograph>)
 3528	0x9149	酉 (<CJK Ideograph>)
 3529	0x701E	瀞 (<CJK Ideograph>)
 3530	0x5678	噸 (<CJK Ideograph>)
 3531	0x5C6F	屯 (<CJK Ideograph>)
 3532	0x60C7	惇 (<CJK Ideograph>)
 3533	0x6566	敦 (<CJK Ideograph>)
 3534	0x6C8C	沌 (<CJK Ideograph>)
 3535	0x8C5A	豚 (<CJK Ideograph>)
 3536	0x9041	遁 (<CJK Ideograph>)
 3537	0x9813	頓 (<CJK Ideograph>)
 3538	0x5451	呑 (<CJK Ideograph>)
 3539	0x66C7	曇 (<CJK Ideograph>)
 3540	0x920D	鈍 (<CJK Ideograph>)
 3541	0x5948	奈 (<CJK Ideograph>)
 3542	0x90A3	那 (<CJK Ideograph>)
 3543	0x5185	内 (<CJK Ideograph>)
 3544	0x4E4D	乍 (<CJK Ideograph>)
 3545	0x51EA	凪 (<CJK Ideograph>)
 3546	0x8599	薙 (<CJK Ideograph>)
 3547	0x8B0E	謎 (<CJK Ideograph>)
 3548	0x7058	灘 (<CJK Ideograph>)
 3549	0x637A	捺 (<CJK Ideograph>)
 3550	0x934B	鍋 (<CJK Ideograph>)
 3551	0x6962	楢 (<CJK Ideograph>)
 3552	0x99B4	馴 (<CJK Ideograph>)
 3553	0x7E04	縄 (<CJK Ideograph>)
 3554	0x7577	畷 (<CJK Ideograph>)
 3555	0x5357	南 (<CJK Ideograph>)
 3556	0x6960	楠 (<CJK Ideograph>)
 3557	0x8EDF	軟 (<CJK Ideograph>)
 3558	0x96E3	難 (<CJK Ideograph>)
 3559	0x6C5D	汝 (<CJK Ideograph>)
 3560	0x4E8C	二 (<CJK Ideograph>)
 3561	0x5C3C	尼 (<CJK Ideograph>)
 3562	0x5F10	弐 (<CJK Ideograph>)
 3563	0x8FE9	迩 (<CJK Ideograph>)
 3564	0x5302	匂 (<CJK Ideograph>)
 3565	0x8CD1	賑 (<CJK Ideograph>)
 3566	0x8089	肉 (<CJK Ideograph>)
 3567	0x8679	虹 (<CJK Ideograph>)
 3568	0x5EFF	廿 (<CJK Ideograph>)
 3569	0x65E5	日 (<CJK Ideograph>)
 3570	0x4E73	乳 (<CJK Ideograph>)
 3571	0x5165	入 (<CJK Ideograph>)
"#

/-- encoding_tables/whatwg/index-jis0208.txt:2776-2963 -/
noncomputable def index19 : List Text := lines! r#" 3572	0x5982	如 (<CJK Ideograph>)
 3573	0x5C3F	尿 (<CJK Ideograph>)
 3574	0x97EE	韮 (<CJK Ideograph>)
 3575	0x4EFB	任 (<CJK Ideograph>)
 3576	0x598A	妊 (<CJK Ideograph>)
 3577	0x5FCD	忍 (<CJK Ideograph>)
 3578	0x8A8D	認 (<CJK Ideograph>)
 3579	0x6FE1	濡 (<CJK Ideograph>)
 3580	0x79B0	禰 (<CJK Ideograph>)
 3581	0x7962	祢 (<CJK Ideograph>)
 3582	0x5BE7	寧 (<CJK Ideograph>)
 3583	0x8471	葱 (<CJK Ideograph>)
 3584	0x732B	猫 (<CJK Ideograph>)
 3585	0x71B1	熱 (<CJK Ideograph>)
 3586	0x5E74	年 (<CJK Ideograph>)
 3587	0x5FF5	念 (<CJK Ideograph>)
 3588	0x637B	捻 (<CJK Ideograph>)
 3589	0x649A	撚 (<CJK Ideograph>)
 3590	0x71C3	燃 (<CJK Ideograph>)
 3591	0x7C98	粘 (<CJK Ideograph>)
 3592	0x4E43	乃 (<CJK Ideograph>)
 3593	0x5EFC	廼 (<CJK Ideograph>)
 3594	0x4E4B	之 (<CJK Ideograph>)
 3595	0x57DC	埜 (<CJK Ideograph>)
 3596	0x56A2	嚢 (<CJK Ideograph>)
 3597	0x60A9	悩 (<CJK Ideograph>)
 3598	0x6FC3	濃 (<CJK Ideograph>)
 3599	0x7D0D	納 (<CJK Ideograph>)
 3600	0x80FD	能 (<CJK Ideograph>)
 3601	0x8133	脳 (<CJK Ideograph>)
 3602	0x81BF	膿 (<CJK Ideograph>)
 3603	0x8FB2	農 (<CJK Ideograph>)
 3604	0x8997	覗 (<CJK Ideograph>)
 3605	0x86A4	蚤 (<CJK Ideograph>)
 3606	0x5DF4	巴 (<CJK Ideograph>)
 3607	0x628A	把 (<CJK Ideograph>)
 3608	0x64AD	播 (<CJK Ideograph>)
 3609	0x8987	覇 (<CJK Ideograph>)
 3610	0x6777	杷 (<CJK Ideograph>)
 3611	0x6CE2	波 (<CJK Ideograph>)
 3612	0x6D3E	派 (<CJK Ideograph>)
 3613	0x7436	琶 (<CJK Ideograph>)
 3614	0x7834	破 (<CJK Ideograph>)
 3615	0x5A46	婆 (<CJK Ideograph>)
 3616	0x7F75	罵 (<CJK Ideograph>)
 3617	0x82AD	芭 (<CJK Ideograph>)
 3618	0x99AC	馬 (<CJK Ideograph>)
 3619	0x4FF3	俳 (<CJK Ideograph>)
 3620	0x5EC3	廃 (<CJK Ideograph>)
 3621	0x62DD	拝 (<CJK Ideograph>)
 3622	0x6392	排 (<CJK Ideograph>)
 3623	0x6557	敗 (<CJK Ideograph>)
 3624	0x676F	杯 (<CJK Ideograph>)
 3625	0x76C3	盃 (<CJK Ideograph>)
 3626	0x724C	牌 (<CJK Ideograph>)
 3627	0x80CC	背 (<CJK Ideograph>)
 3628	0x80BA	肺 (<CJK Ideograph>)
 3629	0x8F29	輩 (<CJK Ideograph>)
 3630	0x914D	配 (<CJK Ideograph>)
 3631	0x500D	倍 (<CJK Ideograph>)
 3632	0x57F9	培 (<CJK Ideograph>)
 3633	0x5A92	媒 (<CJK Ideograph>)
 3634	0x6885	梅 (<CJK Ideograph>)
 3635	0x6973	楳 (<CJK Ideograph>)
 3636	0x7164	煤 (<CJK Ideograph>)
 3637	0x72FD	狽 (<CJK Ideograph>)
 3638	0x8CB7	買 (<CJK Ideograph>)
 3639	0x58F2	売 (<CJK Ideograph>)
 3640	0x8CE0	賠 (<CJK Ideograph>)
 3641	0x966A	陪 (<CJK Ideograph>)
 3642	0x9019	這 (<CJK Ideograph>)
 3643	0x877F	蝿 (<CJK Ideograph>)
 3644	0x79E4	秤 (<CJK Ideograph>)
 3645	0x77E7	矧 (<CJK Ideograph>)
 3646	0x8429	萩 (<CJK Ideograph>)
 3647	0x4F2F	伯 (<CJK Ideograph>)
 3648	0x5265	剥 (<CJK Ideograph>)
 3649	0x535A	博 (<CJK Ideograph>)
 3650	0x62CD	拍 (<CJK Ideograph>)
 3651	0x67CF	柏 (<CJK Ideograph>)
 3652	0x6CCA	泊 (<CJK Ideograph>)
 3653	0x767D	白 (<CJK Ideograph>)
 3654	0x7B94	箔 (<CJK Ideograph>)
 3655	0x7C95	粕 (<CJK Ideograph>)
 3656	0x8236	舶 (<CJK Ideograph>)
 3657	0x8584	薄 (<CJK Ideograph>)
 3658	0x8FEB	迫 (<CJK Ideograph>)
 3659	0x66DD	曝 (<CJK Ideograph>)
 3660	0x6F20	漠 (<CJK Ideograph>)
 3661	0x7206	爆 (<CJK Ideograph>)
 3662	0x7E1B	縛 (<CJK Ideograph>)
 3663	0x83AB	莫 (<CJK Ideograph>)
 3664	0x99C1	駁 (<CJK Ideograph>)
 3665	0x9EA6	麦 (<CJK Ideograph>)
 3666	0x51FD	函 (<CJK Ideograph>)
 3667	0x7BB1	箱 (<CJK Ideograph>)
 3668	0x7872	硲 (<CJK Ideograph>)
 3669	0x7BB8	箸 (<CJK Ideograph>)
 3670	0x8087	肇 (<CJK Ideograph>)
 3671	0x7B48	筈 (<CJK Ideograph>)
 3672	0x6AE8	櫨 (<CJK Ideograph>)
 3673	0x5E61	幡 (<CJK Ideograph>)
 3674	0x808C	肌 (<CJK Ideograph>)
 3675	0x7551	畑 (<CJK Ideograph>)
 3676	0x7560	畠 (<CJK Ideograph>)
 3677	0x516B	八 (<CJK Ideograph>)
 3678	0x9262	鉢 (<CJK Ideograph>)
 3679	0x6E8C	溌 (<CJK Ideograph>)
 3680	0x767A	発 (<CJK Ideograph>)
 3681	0x9197	醗 (<CJK Ideograph>)
 3682	0x9AEA	髪 (<CJK Ideograph>)
 3683	0x4F10	伐 (<CJK Ideograph>)
 3684	0x7F70	罰 (<CJK Ideograph>)
 3685	0x629C	抜 (<CJK Ideograph>)
 3686	0x7B4F	筏 (<CJK Ideograph>)
 3687	0x95A5	閥 (<CJK Ideograph>)
 3688	0x9CE9	鳩 (<CJK Ideograph>)
 3689	0x567A	噺 (<CJK Ideograph>)
 3690	0x5859	塙 (<CJK Ideograph>)
 3691	0x86E4	蛤 (<CJK Ideograph>)
 3692	0x96BC	隼 (<CJK Ideograph>)
 3693	0x4F34	伴 (<CJK Ideograph>)
 3694	0x5224	判 (<CJK Ideograph>)
 3695	0x534A	半 (<CJK Ideograph>)
 3696	0x53CD	反 (<CJK Ideograph>)
 3697	0x53DB	叛 (<CJK Ideograph>)
 3698	0x5E06	帆 (<CJK Ideograph>)
 3699	0x642C	搬 (<CJK Ideograph>)
 3700	0x6591	斑 (<CJK Ideograph>)
 3701	0x677F	板 (<CJK Ideograph>)
 3702	0x6C3E	氾 (<CJK Ideograph>)
 3703	0x6C4E	汎 (<CJK Ideograph>)
 3704	0x7248	版 (<CJK Ideograph>)
 3705	0x72AF	犯 (<CJK Ideograph>)
 3706	0x73ED	班 (<CJK Ideograph>)
 3707	0x7554	畔 (<CJK Ideograph>)
 3708	0x7E41	繁 (<CJK Ideograph>)
 3709	0x822C	般 (<CJK Ideograph>)
 3710	0x85E9	藩 (<CJK Ideograph>)
 3711	0x8CA9	販 (<CJK Ideograph>)
 3712	0x7BC4	範 (<CJK Ideograph>)
 3713	0x91C6	釆 (<CJK Ideograph>)
 3714	0x7169	煩 (<CJK Ideograph>)
 3715	0x9812	頒 (<CJK Ideograph>)
 3716	0x98EF	飯 (<CJK Ideograph>)
 3717	0x633D	挽 (<CJK Ideograph>)
 3718	0x6669	晩 (<CJK Ideograph>)
 3719	0x756A	番 (<CJK Ideograph>)
 3720	0x76E4	盤 (<CJK Ideograph>)
 3721	0x78D0	磐 (<CJK Ideograph>)
 3722	0x8543	蕃 (<CJK Ideograph>)
 3723	0x86EE	蛮 (<CJK Ideograph>)
 3724	0x532A	匪 (<CJK Ideograph>)
 3725	0x5351	卑 (<CJK Ideograph>)
 3726	0x5426	否 (<CJK Ideograph>)
 3727	0x5983	妃 (<CJK Ideograph>)
 3728	0x5E87	庇 (<CJK Ideograph>)
 3729	0x5F7C	彼 (<CJK Ideograph>)
 3730	0x60B2	悲 (<CJK Ideograph>)
 3731	0x6249	扉 (<CJK Ideograph>)
 3732	0x6279	批 (<CJK Ideograph>)
 3733	0x62AB	披 (<CJK Ideograph>)
 3734	0x6590	斐 (<CJK Ideograph>)
 3735	0x6BD4	比 (<CJK Ideograph>)
 3736	0x6CCC	泌 (<CJK Ideograph>)
 3737	0x75B2	疲 (<CJK Ideograph>)
 3738	0x76AE	皮 (<CJK Ideograph>)
 3739	0x7891	碑 (<CJK Ideograph>)
 3740	0x79D8	秘 (<CJK Ideograph>)
 3741	0x7DCB	緋 (<CJK Ideograph>)
 3742	0x7F77	罷 (<CJK Ideograph>)
 3743	0x80A5	肥 (<CJK Ideograph>)
 3744	0x88AB	被 (<CJK Ideograph>)
 3745	0x8AB9	誹 (<CJK Ideograph>)
 3746	0x8CBB	費 (<CJK Ideograph>)
 3747	0x907F	避 (<CJK Ideograph>)
 3748	0x975E	非 (<CJK Ideograph>)
 3749	0x98DB	飛 (<CJK Ideograph>)
 3750	0x6A0B	樋 (<CJK Ideograph>)
 3751	0x7C38	簸 (<CJK Ideograph>)
 3752	0x5099	備 (<CJK Ideograph>)
 3753	0x5C3E	尾 (<CJK Ideograph>)
 3754	0x5FAE	微 (<CJK Ideograph>)
 3755	0x6787	枇 (<CJK Ideograph>)
 3756	0x6BD8	毘 (<CJK Ideograph>)
 3757	0x7435	琵 (<CJK Ideograph>)
 3758	0x7709	眉 (<CJK Ideograph>)
 3759	0x7F8E	美 (<CJK Ideograph>)
"#

/-- encoding_tables/whatwg/index-jis0208.txt:2964-3151 -/
noncomputable def index20 : List Text := lines! r#" 3760	0x9F3B	鼻 (<CJK Ideograph>)
 3761	0x67CA	柊 (<CJK Ideograph>)
 3762	0x7A17	稗 (<CJK Ideograph>)
 3763	0x5339	匹 (<CJK Ideograph>)
 3764	0x758B	疋 (<CJK Ideograph>)
 3765	0x9AED	髭 (<CJK Ideograph>)
 3766	0x5F66	彦 (<CJK Ideograph>)
 3767	0x819D	膝 (<CJK Ideograph>)
 3768	0x83F1	菱 (<CJK Ideograph>)
 3769	0x8098	肘 (<CJK Ideograph>)
 3770	0x5F3C	弼 (<CJK Ideograph>)
 3771	0x5FC5	必 (<CJK Ideograph>)
 3772	0x7562	畢 (<CJK Ideograph>)
 3773	0x7B46	筆 (<CJK Ideograph>)
 3774	0x903C	逼 (<CJK Ideograph>)
 3775	0x6867	桧 (<CJK Ideograph>)
 3776	0x59EB	姫 (<CJK Ideograph>)
 3777	0x5A9B	媛 (<CJK Ideograph>)
 3778	0x7D10	紐 (<CJK Ideograph>)
 3779	0x767E	百 (<CJK Ideograph>)
 3780	0x8B2C	謬 (<CJK Ideograph>)
 3781	0x4FF5	俵 (<CJK Ideograph>)
 3782	0x5F6A	彪 (<CJK Ideograph>)
 3783	0x6A19	標 (<CJK Ideograph>)
 3784	0x6C37	氷 (<CJK Ideograph>)
 3785	0x6F02	漂 (<CJK Ideograph>)
 3786	0x74E2	瓢 (<CJK Ideograph>)
 3787	0x7968	票 (<CJK Ideograph>)
 3788	0x8868	表 (<CJK Ideograph>)
 3789	0x8A55	評 (<CJK Ideograph>)
 3790	0x8C79	豹 (<CJK Ideograph>)
 3791	0x5EDF	廟 (<CJK Ideograph>)
 3792	0x63CF	描 (<CJK Ideograph>)
 3793	0x75C5	病 (<CJK Ideograph>)
 3794	0x79D2	秒 (<CJK Ideograph>)
 3795	0x82D7	苗 (<CJK Ideograph>)
 3796	0x9328	錨 (<CJK Ideograph>)
 3797	0x92F2	鋲 (<CJK Ideograph>)
 3798	0x849C	蒜 (<CJK Ideograph>)
 3799	0x86ED	蛭 (<CJK Ideograph>)
 3800	0x9C2D	鰭 (<CJK Ideograph>)
 3801	0x54C1	品 (<CJK Ideograph>)
 3802	0x5F6C	彬 (<CJK Ideograph>)
 3803	0x658C	斌 (<CJK Ideograph>)
 3804	0x6D5C	浜 (<CJK Ideograph>)
 3805	0x7015	瀕 (<CJK Ideograph>)
 3806	0x8CA7	貧 (<CJK Ideograph>)
 3807	0x8CD3	賓 (<CJK Ideograph>)
 3808	0x983B	頻 (<CJK Ideograph>)
 3809	0x654F	敏 (<CJK Ideograph>)
 3810	0x74F6	瓶 (<CJK Ideograph>)
 3811	0x4E0D	不 (<CJK Ideograph>)
 3812	0x4ED8	付 (<CJK Ideograph>)
 3813	0x57E0	埠 (<CJK Ideograph>)
 3814	0x592B	夫 (<CJK Ideograph>)
 3815	0x5A66	婦 (<CJK Ideograph>)
 3816	0x5BCC	富 (<CJK Ideograph>)
 3817	0x51A8	冨 (<CJK Ideograph>)
 3818	0x5E03	布 (<CJK Ideograph>)
 3819	0x5E9C	府 (<CJK Ideograph>)
 3820	0x6016	怖 (<CJK Ideograph>)
 3821	0x6276	扶 (<CJK Ideograph>)
 3822	0x6577	敷 (<CJK Ideograph>)
 3823	0x65A7	斧 (<CJK Ideograph>)
 3824	0x666E	普 (<CJK Ideograph>)
 3825	0x6D6E	浮 (<CJK Ideograph>)
 3826	0x7236	父 (<CJK Ideograph>)
 3827	0x7B26	符 (<CJK Ideograph>)
 3828	0x8150	腐 (<CJK Ideograph>)
 3829	0x819A	膚 (<CJK Ideograph>)
 3830	0x8299	芙 (<CJK Ideograph>)
 3831	0x8B5C	譜 (<CJK Ideograph>)
 3832	0x8CA0	負 (<CJK Ideograph>)
 3833	0x8CE6	賦 (<CJK Ideograph>)
 3834	0x8D74	赴 (<CJK Ideograph>)
 3835	0x961C	阜 (<CJK Ideograph>)
 3836	0x9644	附 (<CJK Ideograph>)
 3837	0x4FAE	侮 (<CJK Ideograph>)
 3838	0x64AB	撫 (<CJK Ideograph>)
 3839	0x6B66	武 (<CJK Ideograph>)
 3840	0x821E	舞 (<CJK Ideograph>)
 3841	0x8461	葡 (<CJK Ideograph>)
 3842	0x856A	蕪 (<CJK Ideograph>)
 3843	0x90E8	部 (<CJK Ideograph>)
 3844	0x5C01	封 (<CJK Ideograph>)
 3845	0x6953	楓 (<CJK Ideograph>)
 3846	0x98A8	風 (<CJK Ideograph>)
 3847	0x847A	葺 (<CJK Ideograph>)
 3848	0x8557	蕗 (<CJK Ideograph>)
 3849	0x4F0F	伏 (<CJK Ideograph>)
 3850	0x526F	副 (<CJK Ideograph>)
 3851	0x5FA9	復 (<CJK Ideograph>)
 3852	0x5E45	幅 (<CJK Ideograph>)
 3853	0x670D	服 (<CJK Ideograph>)
 3854	0x798F	福 (<CJK Ideograph>)
 3855	0x8179	腹 (<CJK Ideograph>)
 3856	0x8907	複 (<CJK Ideograph>)
 3857	0x8986	覆 (<CJK Ideograph>)
 3858	0x6DF5	淵 (<CJK Ideograph>)
 3859	0x5F17	弗 (<CJK Ideograph>)
 3860	0x6255	払 (<CJK Ideograph>)
 3861	0x6CB8	沸 (<CJK Ideograph>)
 3862	0x4ECF	仏 (<CJK Ideograph>)
 3863	0x7269	物 (<CJK Ideograph>)
 3864	0x9B92	鮒 (<CJK Ideograph>)
 3865	0x5206	分 (<CJK Ideograph>)
 3866	0x543B	吻 (<CJK Ideograph>)
 3867	0x5674	噴 (<CJK Ideograph>)
 3868	0x58B3	墳 (<CJK Ideograph>)
 3869	0x61A4	憤 (<CJK Ideograph>)
 3870	0x626E	扮 (<CJK Ideograph>)
 3871	0x711A	焚 (<CJK Ideograph>)
 3872	0x596E	奮 (<CJK Ideograph>)
 3873	0x7C89	粉 (<CJK Ideograph>)
 3874	0x7CDE	糞 (<CJK Ideograph>)
 3875	0x7D1B	紛 (<CJK Ideograph>)
 3876	0x96F0	雰 (<CJK Ideograph>)
 3877	0x6587	文 (<CJK Ideograph>)
 3878	0x805E	聞 (<CJK Ideograph>)
 3879	0x4E19	丙 (<CJK Ideograph>)
 3880	0x4F75	併 (<CJK Ideograph>)
 3881	0x5175	兵 (<CJK Ideograph>)
 3882	0x5840	塀 (<CJK Ideograph>)
 3883	0x5E63	幣 (<CJK Ideograph>)
 3884	0x5E73	平 (<CJK Ideograph>)
 3885	0x5F0A	弊 (<CJK Ideograph>)
 3886	0x67C4	柄 (<CJK Ideograph>)
 3887	0x4E26	並 (<CJK Ideograph>)
 3888	0x853D	蔽 (<CJK Ideograph>)
 3889	0x9589	閉 (<CJK Ideograph>)
 3890	0x965B	陛 (<CJK Ideograph>)
 3891	0x7C73	米 (<CJK Ideograph>)
 3892	0x9801	頁 (<CJK Ideograph>)
 3893	0x50FB	僻 (<CJK Ideograph>)
 3894	0x58C1	壁 (<CJK Ideograph>)
 3895	0x7656	癖 (<CJK Ideograph>)
 3896	0x78A7	碧 (<CJK Ideograph>)
 3897	0x5225	別 (<CJK Ideograph>)
 3898	0x77A5	瞥 (<CJK Ideograph>)
 3899	0x8511	蔑 (<CJK Ideograph>)
 3900	0x7B86	箆 (<CJK Ideograph>)
 3901	0x504F	偏 (<CJK Ideograph>)
 3902	0x5909	変 (<CJK Ideograph>)
 3903	0x7247	片 (<CJK Ideograph>)
 3904	0x7BC7	篇 (<CJK Ideograph>)
 3905	0x7DE8	編 (<CJK Ideograph>)
 3906	0x8FBA	辺 (<CJK Ideograph>)
 3907	0x8FD4	返 (<CJK Ideograph>)
 3908	0x904D	遍 (<CJK Ideograph>)
 3909	0x4FBF	便 (<CJK Ideograph>)
 3910	0x52C9	勉 (<CJK Ideograph>)
 3911	0x5A29	娩 (<CJK Ideograph>)
 3912	0x5F01	弁 (<CJK Ideograph>)
 3913	0x97AD	鞭 (<CJK Ideograph>)
 3914	0x4FDD	保 (<CJK Ideograph>)
 3915	0x8217	舗 (<CJK Ideograph>)
 3916	0x92EA	鋪 (<CJK Ideograph>)
 3917	0x5703	圃 (<CJK Ideograph>)
 3918	0x6355	捕 (<CJK Ideograph>)
 3919	0x6B69	歩 (<CJK Ideograph>)
 3920	0x752B	甫 (<CJK Ideograph>)
 3921	0x88DC	補 (<CJK Ideograph>)
 3922	0x8F14	輔 (<CJK Ideograph>)
 3923	0x7A42	穂 (<CJK Ideograph>)
 3924	0x52DF	募 (<CJK Ideograph>)
 3925	0x5893	墓 (<CJK Ideograph>)
 3926	0x6155	慕 (<CJK Ideograph>)
 3927	0x620A	戊 (<CJK Ideograph>)
 3928	0x66AE	暮 (<CJK Ideograph>)
 3929	0x6BCD	母 (<CJK Ideograph>)
 3930	0x7C3F	簿 (<CJK Ideograph>)
 3931	0x83E9	菩 (<CJK Ideograph>)
 3932	0x5023	倣 (<CJK Ideograph>)
 3933	0x4FF8	俸 (<CJK Ideograph>)
 3934	0x5305	包 (<CJK Ideograph>)
 3935	0x5446	呆 (<CJK Ideograph>)
 3936	0x5831	報 (<CJK Ideograph>)
 3937	0x5949	奉 (<CJK Ideograph>)
 3938	0x5B9D	宝 (<CJK Ideograph>)
 3939	0x5CF0	峰 (<CJK Ideograph>)
 3940	0x5CEF	峯 (<CJK Ideograph>)
 3941	0x5D29	崩 (<CJK Ideograph>)
 3942	0x5E96	庖 (<CJK Ideograph>)
 3943	0x62B1	抱 (<CJK Ideograph>)
 3944	0x6367	捧 (<CJK Ideograph>)
 3945	0x653E	放 (<CJK Ideograph>)
 3946	0x65B9	方 (<CJK Ideograph>)
 3947	0x670B	朋 (<CJK Ideograph>)
"#

/-- encoding_tables/whatwg/index-jis0208.txt:3152-3339 -/
noncomputable def index21 : List Text := lines! r#" 3948	0x6CD5	法 (<CJK Ideograph>)
 3949	0x6CE1	泡 (<CJK Ideograph>)
 3950	0x70F9	烹 (<CJK Ideograph>)
 3951	0x7832	砲 (<CJK Ideograph>)
 3952	0x7E2B	縫 (<CJK Ideograph>)
 3953	0x80DE	胞 (<CJK Ideograph>)
 3954	0x82B3	芳 (<CJK Ideograph>)
 3955	0x840C	萌 (<CJK Ideograph>)
 3956	0x84EC	蓬 (<CJK Ideograph>)
 3957	0x8702	蜂 (<CJK Ideograph>)
 3958	0x8912	褒 (<CJK Ideograph>)
 3959	0x8A2A	訪 (<CJK Ideograph>)
 3960	0x8C4A	豊 (<CJK Ideograph>)
 3961	0x90A6	邦 (<CJK Ideograph>)
 3962	0x92D2	鋒 (<CJK Ideograph>)
 3963	0x98FD	飽 (<CJK Ideograph>)
 3964	0x9CF3	鳳 (<CJK Ideograph>)
 3965	0x9D6C	鵬 (<CJK Ideograph>)
 3966	0x4E4F	乏 (<CJK Ideograph>)
 3967	0x4EA1	亡 (<CJK Ideograph>)
 3968	0x508D	傍 (<CJK Ideograph>)
 3969	0x5256	剖 (<CJK Ideograph>)
 3970	0x574A	坊 (<CJK Ideograph>)
 3971	0x59A8	妨 (<CJK Ideograph>)
 3972	0x5E3D	帽 (<CJK Ideograph>)
 3973	0x5FD8	忘 (<CJK Ideograph>)
 3974	0x5FD9	忙 (<CJK Ideograph>)
 3975	0x623F	房 (<CJK Ideograph>)
 3976	0x66B4	暴 (<CJK Ideograph>)
 3977	0x671B	望 (<CJK Ideograph>)
 3978	0x67D0	某 (<CJK Ideograph>)
 3979	0x68D2	棒 (<CJK Ideograph>)
 3980	0x5192	冒 (<CJK Ideograph>)
 3981	0x7D21	紡 (<CJK Ideograph>)
 3982	0x80AA	肪 (<CJK Ideograph>)
 3983	0x81A8	膨 (<CJK Ideograph>)
 3984	0x8B00	謀 (<CJK Ideograph>)
 3985	0x8C8C	貌 (<CJK Ideograph>)
 3986	0x8CBF	貿 (<CJK Ideograph>)
 3987	0x927E	鉾 (<CJK Ideograph>)
 3988	0x9632	防 (<CJK Ideograph>)
 3989	0x5420	吠 (<CJK Ideograph>)
 3990	0x982C	頬 (<CJK Ideograph>)
 3991	0x5317	北 (<CJK Ideograph>)
 3992	0x50D5	僕 (<CJK Ideograph>)
 3993	0x535C	卜 (<CJK Ideograph>)
 3994	0x58A8	墨 (<CJK Ideograph>)
 3995	0x64B2	撲 (<CJK Ideograph>)
 3996	0x6734	朴 (<CJK Ideograph>)
 3997	0x7267	牧 (<CJK Ideograph>)
 3998	0x7766	睦 (<CJK Ideograph>)
 3999	0x7A46	穆 (<CJK Ideograph>)
 4000	0x91E6	釦 (<CJK Ideograph>)
 4001	0x52C3	勃 (<CJK Ideograph>)
 4002	0x6CA1	没 (<CJK Ideograph>)
 4003	0x6B86	殆 (<CJK Ideograph>)
 4004	0x5800	堀 (<CJK Ideograph>)
 4005	0x5E4C	幌 (<CJK Ideograph>)
 4006	0x5954	奔 (<CJK Ideograph>)
 4007	0x672C	本 (<CJK Ideograph>)
 4008	0x7FFB	翻 (<CJK Ideograph>)
 4009	0x51E1	凡 (<CJK Ideograph>)
 4010	0x76C6	盆 (<CJK Ideograph>)
 4011	0x6469	摩 (<CJK Ideograph>)
 4012	0x78E8	磨 (<CJK Ideograph>)
 4013	0x9B54	魔 (<CJK Ideograph>)
 4014	0x9EBB	麻 (<CJK Ideograph>)
 4015	0x57CB	埋 (<CJK Ideograph>)
 4016	0x59B9	妹 (<CJK Ideograph>)
 4017	0x6627	昧 (<CJK Ideograph>)
 4018	0x679A	枚 (<CJK Ideograph>)
 4019	0x6BCE	毎 (<CJK Ideograph>)
 4020	0x54E9	哩 (<CJK Ideograph>)
 4021	0x69D9	槙 (<CJK Ideograph>)
 4022	0x5E55	幕 (<CJK Ideograph>)
 4023	0x819C	膜 (<CJK Ideograph>)
 4024	0x6795	枕 (<CJK Ideograph>)
 4025	0x9BAA	鮪 (<CJK Ideograph>)
 4026	0x67FE	柾 (<CJK Ideograph>)
 4027	0x9C52	鱒 (<CJK Ideograph>)
 4028	0x685D	桝 (<CJK Ideograph>)
 4029	0x4EA6	亦 (<CJK Ideograph>)
 4030	0x4FE3	俣 (<CJK Ideograph>)
 4031	0x53C8	又 (<CJK Ideograph>)
 4032	0x62B9	抹 (<CJK Ideograph>)
 4033	0x672B	末 (<CJK Ideograph>)
 4034	0x6CAB	沫 (<CJK Ideograph>)
 4035	0x8FC4	迄 (<CJK Ideograph>)
 4036	0x4FAD	侭 (<CJK Ideograph>)
 4037	0x7E6D	繭 (<CJK Ideograph>)
 4038	0x9EBF	麿 (<CJK Ideograph>)
 4039	0x4E07	万 (<CJK Ideograph>)
 4040	0x6162	慢 (<CJK Ideograph>)
 4041	0x6E80	満 (<CJK Ideograph>)
 4042	0x6F2B	漫 (<CJK Ideograph>)
 4043	0x8513	蔓 (<CJK Ideograph>)
 4044	0x5473	味 (<CJK Ideograph>)
 4045	0x672A	未 (<CJK Ideograph>)
 4046	0x9B45	魅 (<CJK Ideograph>)
 4047	0x5DF3	巳 (<CJK Ideograph>)
 4048	0x7B95	箕 (<CJK Ideograph>)
 4049	0x5CAC	岬 (<CJK Ideograph>)
 4050	0x5BC6	密 (<CJK Ideograph>)
 4051	0x871C	蜜 (<CJK Ideograph>)
 4052	0x6E4A	湊 (<CJK Ideograph>)
 4053	0x84D1	蓑 (<CJK Ideograph>)
 4054	0x7A14	稔 (<CJK Ideograph>)
 4055	0x8108	脈 (<CJK Ideograph>)
 4056	0x5999	妙 (<CJK Ideograph>)
 4057	0x7C8D	粍 (<CJK Ideograph>)
 4058	0x6C11	民 (<CJK Ideograph>)
 4059	0x7720	眠 (<CJK Ideograph>)
 4060	0x52D9	務 (<CJK Ideograph>)
 4061	0x5922	夢 (<CJK Ideograph>)
 4062	0x7121	無 (<CJK Ideograph>)
 4063	0x725F	牟 (<CJK Ideograph>)
 4064	0x77DB	矛 (<CJK Ideograph>)
 4065	0x9727	霧 (<CJK Ideograph>)
 4066	0x9D61	鵡 (<CJK Ideograph>)
 4067	0x690B	椋 (<CJK Ideograph>)
 4068	0x5A7F	婿 (<CJK Ideograph>)
 4069	0x5A18	娘 (<CJK Ideograph>)
 4070	0x51A5	冥 (<CJK Ideograph>)
 4071	0x540D	名 (<CJK Ideograph>)
 4072	0x547D	命 (<CJK Ideograph>)
 4073	0x660E	明 (<CJK Ideograph>)
 4074	0x76DF	盟 (<CJK Ideograph>)
 4075	0x8FF7	迷 (<CJK Ideograph>)
 4076	0x9298	銘 (<CJK Ideograph>)
 4077	0x9CF4	鳴 (<CJK Ideograph>)
 4078	0x59EA	姪 (<CJK Ideograph>)
 4079	0x725D	牝 (<CJK Ideograph>)
 4080	0x6EC5	滅 (<CJK Ideograph>)
 4081	0x514D	免 (<CJK Ideograph>)
 4082	0x68C9	棉 (<CJK Ideograph>)
 4083	0x7DBF	綿 (<CJK Ideograph>)
 4084	0x7DEC	緬 (<CJK Ideograph>)
 4085	0x9762	面 (<CJK Ideograph>)
 4086	0x9EBA	麺 (<CJK Ideograph>)
 4087	0x6478	摸 (<CJK Ideograph>)
 4088	0x6A21	模 (<CJK Ideograph>)
 4089	0x8302	茂 (<CJK Ideograph>)
 4090	0x5984	妄 (<CJK Ideograph>)
 4091	0x5B5F	孟 (<CJK Ideograph>)
 4092	0x6BDB	毛 (<CJK Ideograph>)
 4093	0x731B	猛 (<CJK Ideograph>)
 4094	0x76F2	盲 (<CJK Ideograph>)
 4095	0x7DB2	網 (<CJK Ideograph>)
 4096	0x8017	耗 (<CJK Ideograph>)
 4097	0x8499	蒙 (<CJK Ideograph>)
 4098	0x5132	儲 (<CJK Ideograph>)
 4099	0x6728	木 (<CJK Ideograph>)
 4100	0x9ED9	黙 (<CJK Ideograph>)
 4101	0x76EE	目 (<CJK Ideograph>)
 4102	0x6762	杢 (<CJK Ideograph>)
 4103	0x52FF	勿 (<CJK Ideograph>)
 4104	0x9905	餅 (<CJK Ideograph>)
 4105	0x5C24	尤 (<CJK Ideograph>)
 4106	0x623B	戻 (<CJK Ideograph>)
 4107	0x7C7E	籾 (<CJK Ideograph>)
 4108	0x8CB0	貰 (<CJK Ideograph>)
 4109	0x554F	問 (<CJK Ideograph>)
 4110	0x60B6	悶 (<CJK Ideograph>)
 4111	0x7D0B	紋 (<CJK Ideograph>)
 4112	0x9580	門 (<CJK Ideograph>)
 4113	0x5301	匁 (<CJK Ideograph>)
 4114	0x4E5F	也 (<CJK Ideograph>)
 4115	0x51B6	冶 (<CJK Ideograph>)
 4116	0x591C	夜 (<CJK Ideograph>)
 4117	0x723A	爺 (<CJK Ideograph>)
 4118	0x8036	耶 (<CJK Ideograph>)
 4119	0x91CE	野 (<CJK Ideograph>)
 4120	0x5F25	弥 (<CJK Ideograph>)
 4121	0x77E2	矢 (<CJK Ideograph>)
 4122	0x5384	厄 (<CJK Ideograph>)
 4123	0x5F79	役 (<CJK Ideograph>)
 4124	0x7D04	約 (<CJK Ideograph>)
 4125	0x85AC	薬 (<CJK Ideograph>)
 4126	0x8A33	訳 (<CJK Ideograph>)
 4127	0x8E8D	躍 (<CJK Ideograph>)
 4128	0x9756	靖 (<CJK Ideograph>)
 4129	0x67F3	柳 (<CJK Ideograph>)
 4130	0x85AE	薮 (<CJK Ideograph>)
 4131	0x9453	鑓 (<CJK Ideograph>)
 4132	0x6109	愉 (<CJK Ideograph>)
 4133	0x6108	愈 (<CJK Ideograph>)
 4134	0x6CB9	油 (<CJK Ideograph>)
 4135	0x7652	癒 (<CJK Ideograph>)
"#

/-- encoding_tables/whatwg/index-jis0208.txt:3340-3527 -/
noncomputable def index22 : List Text := lines! r#" 4136	0x8AED	諭 (<CJK Ideograph>)
 4137	0x8F38	輸 (<CJK Ideograph>)
 4138	0x552F	唯 (<CJK Ideograph>)
 4139	0x4F51	佑 (<CJK Ideograph>)
 4140	0x512A	優 (<CJK Ideograph>)
 4141	0x52C7	勇 (<CJK Ideograph>)
 4142	0x53CB	友 (<CJK Ideograph>)
 4143	0x5BA5	宥 (<CJK Ideograph>)
 4144	0x5E7D	幽 (<CJK Ideograph>)
 4145	0x60A0	悠 (<CJK Ideograph>)
 4146	0x6182	憂 (<CJK Ideograph>)
 4147	0x63D6	揖 (<CJK Ideograph>)
 4148	0x6709	有 (<CJK Ideograph>)
 4149	0x67DA	柚 (<CJK Ideograph>)
 4150	0x6E67	湧 (<CJK Ideograph>)
 4151	0x6D8C	涌 (<CJK Ideograph>)
 4152	0x7336	猶 (<CJK Ideograph>)
 4153	0x7337	猷 (<CJK Ideograph>)
 4154	0x7531	由 (<CJK Ideograph>)
 4155	0x7950	祐 (<CJK Ideograph>)
 4156	0x88D5	裕 (<CJK Ideograph>)
 4157	0x8A98	誘 (<CJK Ideograph>)
 4158	0x904A	遊 (<CJK Ideograph>)
 4159	0x9091	邑 (<CJK Ideograph>)
 4160	0x90F5	郵 (<CJK Ideograph>)
 4161	0x96C4	雄 (<CJK Ideograph>)
 4162	0x878D	融 (<CJK Ideograph>)
 4163	0x5915	夕 (<CJK Ideograph>)
 4164	0x4E88	予 (<CJK Ideograph>)
 4165	0x4F59	余 (<CJK Ideograph>)
 4166	0x4E0E	与 (<CJK Ideograph>)
 4167	0x8A89	誉 (<CJK Ideograph>)
 4168	0x8F3F	輿 (<CJK Ideograph>)
 4169	0x9810	預 (<CJK Ideograph>)
 4170	0x50AD	傭 (<CJK Ideograph>)
 4171	0x5E7C	幼 (<CJK Ideograph>)
 4172	0x5996	妖 (<CJK Ideograph>)
 4173	0x5BB9	容 (<CJK Ideograph>)
 4174	0x5EB8	庸 (<CJK Ideograph>)
 4175	0x63DA	揚 (<CJK Ideograph>)
 4176	0x63FA	揺 (<CJK Ideograph>)
 4177	0x64C1	擁 (<CJK Ideograph>)
 4178	0x66DC	曜 (<CJK Ideograph>)
 4179	0x694A	楊 (<CJK Ideograph>)
 4180	0x69D8	様 (<CJK Ideograph>)
 4181	0x6D0B	洋 (<CJK Ideograph>)
 4182	0x6EB6	溶 (<CJK Ideograph>)
 4183	0x7194	熔 (<CJK Ideograph>)
 4184	0x7528	用 (<CJK Ideograph>)
 4185	0x7AAF	窯 (<CJK Ideograph>)
 4186	0x7F8A	羊 (<CJK Ideograph>)
 4187	0x8000	耀 (<CJK Ideograph>)
 4188	0x8449	葉 (<CJK Ideograph>)
 4189	0x84C9	蓉 (<CJK Ideograph>)
 4190	0x8981	要 (<CJK Ideograph>)
 4191	0x8B21	謡 (<CJK Ideograph>)
 4192	0x8E0A	踊 (<CJK Ideograph>)
 4193	0x9065	遥 (<CJK Ideograph>)
 4194	0x967D	陽 (<CJK Ideograph>)
 4195	0x990A	養 (<CJK Ideograph>)
 4196	0x617E	慾 (<CJK Ideograph>)
 4197	0x6291	抑 (<CJK Ideograph>)
 4198	0x6B32	欲 (<CJK Ideograph>)
 4199	0x6C83	沃 (<CJK Ideograph>)
 4200	0x6D74	浴 (<CJK Ideograph>)
 4201	0x7FCC	翌 (<CJK Ideograph>)
 4202	0x7FFC	翼 (<CJK Ideograph>)
 4203	0x6DC0	淀 (<CJK Ideograph>)
 4204	0x7F85	羅 (<CJK Ideograph>)
 4205	0x87BA	螺 (<CJK Ideograph>)
 4206	0x88F8	裸 (<CJK Ideograph>)
 4207	0x6765	来 (<CJK Ideograph>)
 4208	0x83B1	莱 (<CJK Ideograph>)
 4209	0x983C	頼 (<CJK Ideograph>)
 4210	0x96F7	雷 (<CJK Ideograph>)
 4211	0x6D1B	洛 (<CJK Ideograph>)
 4212	0x7D61	絡 (<CJK Ideograph>)
 4213	0x843D	落 (<CJK Ideograph>)
 4214	0x916A	酪 (<CJK Ideograph>)
 4215	0x4E71	乱 (<CJK Ideograph>)
 4216	0x5375	卵 (<CJK Ideograph>)
 4217	0x5D50	嵐 (<CJK Ideograph>)
 4218	0x6B04	欄 (<CJK Ideograph>)
 4219	0x6FEB	濫 (<CJK Ideograph>)
 4220	0x85CD	藍 (<CJK Ideograph>)
 4221	0x862D	蘭 (<CJK Ideograph>)
 4222	0x89A7	覧 (<CJK Ideograph>)
 4223	0x5229	利 (<CJK Ideograph>)
 4224	0x540F	吏 (<CJK Ideograph>)
 4225	0x5C65	履 (<CJK Ideograph>)
 4226	0x674E	李 (<CJK Ideograph>)
 4227	0x68A8	梨 (<CJK Ideograph>)
 4228	0x7406	理 (<CJK Ideograph>)
 4229	0x7483	璃 (<CJK Ideograph>)
 4230	0x75E2	痢 (<CJK Ideograph>)
 4231	0x88CF	裏 (<CJK Ideograph>)
 4232	0x88E1	裡 (<CJK Ideograph>)
 4233	0x91CC	里 (<CJK Ideograph>)
 4234	0x96E2	離 (<CJK Ideograph>)
 4235	0x9678	陸 (<CJK Ideograph>)
 4236	0x5F8B	律 (<CJK Ideograph>)
 4237	0x7387	率 (<CJK Ideograph>)
 4238	0x7ACB	立 (<CJK Ideograph>)
 4239	0x844E	葎 (<CJK Ideograph>)
 4240	0x63A0	掠 (<CJK Ideograph>)
 4241	0x7565	略 (<CJK Ideograph>)
 4242	0x5289	劉 (<CJK Ideograph>)
 4243	0x6D41	流 (<CJK Ideograph>)
 4244	0x6E9C	溜 (<CJK Ideograph>)
 4245	0x7409	琉 (<CJK Ideograph>)
 4246	0x7559	留 (<CJK Ideograph>)
 4247	0x786B	硫 (<CJK Ideograph>)
 4248	0x7C92	粒 (<CJK Ideograph>)
 4249	0x9686	隆 (<CJK Ideograph>)
 4250	0x7ADC	竜 (<CJK Ideograph>)
 4251	0x9F8D	龍 (<CJK Ideograph>)
 4252	0x4FB6	侶 (<CJK Ideograph>)
 4253	0x616E	慮 (<CJK Ideograph>)
 4254	0x65C5	旅 (<CJK Ideograph>)
 4255	0x865C	虜 (<CJK Ideograph>)
 4256	0x4E86	了 (<CJK Ideograph>)
 4257	0x4EAE	亮 (<CJK Ideograph>)
 4258	0x50DA	僚 (<CJK Ideograph>)
 4259	0x4E21	両 (<CJK Ideograph>)
 4260	0x51CC	凌 (<CJK Ideograph>)
 4261	0x5BEE	寮 (<CJK Ideograph>)
 4262	0x6599	料 (<CJK Ideograph>)
 4263	0x6881	梁 (<CJK Ideograph>)
 4264	0x6DBC	涼 (<CJK Ideograph>)
 4265	0x731F	猟 (<CJK Ideograph>)
 4266	0x7642	療 (<CJK Ideograph>)
 4267	0x77AD	瞭 (<CJK Ideograph>)
 4268	0x7A1C	稜 (<CJK Ideograph>)
 4269	0x7CE7	糧 (<CJK Ideograph>)
 4270	0x826F	良 (<CJK Ideograph>)
 4271	0x8AD2	諒 (<CJK Ideograph>)
 4272	0x907C	遼 (<CJK Ideograph>)
 4273	0x91CF	量 (<CJK Ideograph>)
 4274	0x9675	陵 (<CJK Ideograph>)
 4275	0x9818	領 (<CJK Ideograph>)
 4276	0x529B	力 (<CJK Ideograph>)
 4277	0x7DD1	緑 (<CJK Ideograph>)
 4278	0x502B	倫 (<CJK Ideograph>)
 4279	0x5398	厘 (<CJK Ideograph>)
 4280	0x6797	林 (<CJK Ideograph>)
 4281	0x6DCB	淋 (<CJK Ideograph>)
 4282	0x71D0	燐 (<CJK Ideograph>)
 4283	0x7433	琳 (<CJK Ideograph>)
 4284	0x81E8	臨 (<CJK Ideograph>)
 4285	0x8F2A	輪 (<CJK Ideograph>)
 4286	0x96A3	隣 (<CJK Ideograph>)
 4287	0x9C57	鱗 (<CJK Ideograph>)
 4288	0x9E9F	麟 (<CJK Ideograph>)
 4289	0x7460	瑠 (<CJK Ideograph>)
 4290	0x5841	塁 (<CJK Ideograph>)
 4291	0x6D99	涙 (<CJK Ideograph>)
 4292	0x7D2F	累 (<CJK Ideograph>)
 4293	0x985E	類 (<CJK Ideograph>)
 4294	0x4EE4	令 (<CJK Ideograph>)
 4295	0x4F36	伶 (<CJK Ideograph>)
 4296	0x4F8B	例 (<CJK Ideograph>)
 4297	0x51B7	冷 (<CJK Ideograph>)
 4298	0x52B1	励 (<CJK Ideograph>)
 4299	0x5DBA	嶺 (<CJK Ideograph>)
 4300	0x601C	怜 (<CJK Ideograph>)
 4301	0x73B2	玲 (<CJK Ideograph>)
 4302	0x793C	礼 (<CJK Ideograph>)
 4303	0x82D3	苓 (<CJK Ideograph>)
 4304	0x9234	鈴 (<CJK Ideograph>)
 4305	0x96B7	隷 (<CJK Ideograph>)
 4306	0x96F6	零 (<CJK Ideograph>)
 4307	0x970A	霊 (<CJK Ideograph>)
 4308	0x9E97	麗 (<CJK Ideograph>)
 4309	0x9F62	齢 (<CJK Ideograph>)
 4310	0x66A6	暦 (<CJK Ideograph>)
 4311	0x6B74	歴 (<CJK Ideograph>)
 4312	0x5217	列 (<CJK Ideograph>)
 4313	0x52A3	劣 (<CJK Ideograph>)
 4314	0x70C8	烈 (<CJK Ideograph>)
 4315	0x88C2	裂 (<CJK Ideograph>)
 4316	0x5EC9	廉 (<CJK Ideograph>)
 4317	0x604B	恋 (<CJK Ideograph>)
 4318	0x6190	憐 (<CJK Ideograph>)
 4319	0x6F23	漣 (<CJK Ideograph>)
 4320	0x7149	煉 (<CJK Ideograph>)
 4321	0x7C3E	簾 (<CJK Ideograph>)
 4322	0x7DF4	練 (<CJK Ideograph>)
 4323	0x806F	聯 (<CJK Ideograph>)
"#

/-- encoding_tables/whatwg/index-jis0208.txt:3528-3672 -/
noncomputable def index23 : List Text := lines! r#" 4324	0x84EE	蓮 (<CJK Ideograph>)
 4325	0x9023	連 (<CJK Ideograph>)
 4326	0x932C	錬 (<CJK Ideograph>)
 4327	0x5442	呂 (<CJK Ideograph>)
 4328	0x9B6F	魯 (<CJK Ideograph>)
 4329	0x6AD3	櫓 (<CJK Ideograph>)
 4330	0x7089	炉 (<CJK Ideograph>)
 4331	0x8CC2	賂 (<CJK Ideograph>)
 4332	0x8DEF	路 (<CJK Ideograph>)
 4333	0x9732	露 (<CJK Ideograph>)
 4334	0x52B4	労 (<CJK Ideograph>)
 4335	0x5A41	婁 (<CJK Ideograph>)
 4336	0x5ECA	廊 (<CJK Ideograph>)
 4337	0x5F04	弄 (<CJK Ideograph>)
 4338	0x6717	朗 (<CJK Ideograph>)
 4339	0x697C	楼 (<CJK Ideograph>)
 4340	0x6994	榔 (<CJK Ideograph>)
 4341	0x6D6A	浪 (<CJK Ideograph>)
 4342	0x6F0F	漏 (<CJK Ideograph>)
 4343	0x7262	牢 (<CJK Ideograph>)
 4344	0x72FC	狼 (<CJK Ideograph>)
 4345	0x7BED	篭 (<CJK Ideograph>)
 4346	0x8001	老 (<CJK Ideograph>)
 4347	0x807E	聾 (<CJK Ideograph>)
 4348	0x874B	蝋 (<CJK Ideograph>)
 4349	0x90CE	郎 (<CJK Ideograph>)
 4350	0x516D	六 (<CJK Ideograph>)
 4351	0x9E93	麓 (<CJK Ideograph>)
 4352	0x7984	禄 (<CJK Ideograph>)
 4353	0x808B	肋 (<CJK Ideograph>)
 4354	0x9332	録 (<CJK Ideograph>)
 4355	0x8AD6	論 (<CJK Ideograph>)
 4356	0x502D	倭 (<CJK Ideograph>)
 4357	0x548C	和 (<CJK Ideograph>)
 4358	0x8A71	話 (<CJK Ideograph>)
 4359	0x6B6A	歪 (<CJK Ideograph>)
 4360	0x8CC4	賄 (<CJK Ideograph>)
 4361	0x8107	脇 (<CJK Ideograph>)
 4362	0x60D1	惑 (<CJK Ideograph>)
 4363	0x67A0	枠 (<CJK Ideograph>)
 4364	0x9DF2	鷲 (<CJK Ideograph>)
 4365	0x4E99	亙 (<CJK Ideograph>)
 4366	0x4E98	亘 (<CJK Ideograph>)
 4367	0x9C10	鰐 (<CJK Ideograph>)
 4368	0x8A6B	詫 (<CJK Ideograph>)
 4369	0x85C1	藁 (<CJK Ideograph>)
 4370	0x8568	蕨 (<CJK Ideograph>)
 4371	0x6900	椀 (<CJK Ideograph>)
 4372	0x6E7E	湾 (<CJK Ideograph>)
 4373	0x7897	碗 (<CJK Ideograph>)
 4374	0x8155	腕 (<CJK Ideograph>)
 4418	0x5F0C	弌 (<CJK Ideograph>)
 4419	0x4E10	丐 (<CJK Ideograph>)
 4420	0x4E15	丕 (<CJK Ideograph>)
 4421	0x4E2A	个 (<CJK Ideograph>)
 4422	0x4E31	丱 (<CJK Ideograph>)
 4423	0x4E36	丶 (<CJK Ideograph>)
 4424	0x4E3C	丼 (<CJK Ideograph>)
 4425	0x4E3F	丿 (<CJK Ideograph>)
 4426	0x4E42	乂 (<CJK Ideograph>)
 4427	0x4E56	乖 (<CJK Ideograph>)
 4428	0x4E58	乘 (<CJK Ideograph>)
 4429	0x4E82	亂 (<CJK Ideograph>)
 4430	0x4E85	亅 (<CJK Ideograph>)
 4431	0x8C6B	豫 (<CJK Ideograph>)
 4432	0x4E8A	亊 (<CJK Ideograph>)
 4433	0x8212	舒 (<CJK Ideograph>)
 4434	0x5F0D	弍 (<CJK Ideograph>)
 4435	0x4E8E	于 (<CJK Ideograph>)
 4436	0x4E9E	亞 (<CJK Ideograph>)
 4437	0x4E9F	亟 (<CJK Ideograph>)
 4438	0x4EA0	亠 (<CJK Ideograph>)
 4439	0x4EA2	亢 (<CJK Ideograph>)
 4440	0x4EB0	亰 (<CJK Ideograph>)
 4441	0x4EB3	亳 (<CJK Ideograph>)
 4442	0x4EB6	亶 (<CJK Ideograph>)
 4443	0x4ECE	从 (<CJK Ideograph>)
 4444	0x4ECD	仍 (<CJK Ideograph>)
 4445	0x4EC4	仄 (<CJK Ideograph>)
 4446	0x4EC6	仆 (<CJK Ideograph>)
 4447	0x4EC2	仂 (<CJK Ideograph>)
 4448	0x4ED7	仗 (<CJK Ideograph>)
 4449	0x4EDE	仞 (<CJK Ideograph>)
 4450	0x4EED	仭 (<CJK Ideograph>)
 4451	0x4EDF	仟 (<CJK Ideograph>)
 4452	0x4EF7	价 (<CJK Ideograph>)
 4453	0x4F09	伉 (<CJK Ideograph>)
 4454	0x4F5A	佚 (<CJK Ideograph>)
 4455	0x4F30	估 (<CJK Ideograph>)
 4456	0x4F5B	佛 (<CJK Ideograph>)
 4457	0x4F5D	佝 (<CJK Ideograph>)
 4458	0x4F57	佗 (<CJK Ideograph>)
 4459	0x4F47	佇 (<CJK Ideograph>)
 4460	0x4F76	佶 (<CJK Ideograph>)
 4461	0x4F88	侈 (<CJK Ideograph>)
 4462	0x4F8F	侏 (<CJK Ideograph>)
 4463	0x4F98	侘 (<CJK Ideograph>)
 4464	0x4F7B	佻 (<CJK Ideograph>)
 4465	0x4F69	佩 (<CJK Ideograph>)
 4466	0x4F70	佰 (<CJK Ideograph>)
 4467	0x4F91	侑 (<CJK Ideograph>)
 4468	0x4F6F	佯 (<CJK Ideograph>)
 4469	0x4F86	來 (<CJK Ideograph>)
 4470	0x4F96	侖 (<CJK Ideograph>)
 4471	0x5118	儘 (<CJK Ideograph>)
 4472	0x4FD4	俔 (<CJK Ideograph>)
 4473	0x4FDF	俟 (<CJK Ideograph>)
 4474	0x4FCE	俎 (<CJK Ideograph>)
 4475	0x4FD8	俘 (<CJK Ideograph>)
 4476	0x4FDB	俛 (<CJK Ideograph>)
 4477	0x4FD1	俑 (<CJK Ideograph>)
 4478	0x4FDA	俚 (<CJK Ideograph>)
 4479	0x4FD0	俐 (<CJK Ideograph>)
 4480	0x4FE4	俤 (<CJK Ideograph>)
 4481	0x4FE5	俥 (<CJK Ideograph>)
 4482	0x501A	倚 (<CJK Ideograph>)
 4483	0x5028	倨 (<CJK Ideograph>)
 4484	0x5014	倔 (<CJK Ideograph>)
 4485	0x502A	倪 (<CJK Ideograph>)
 4486	0x5025	倥 (<CJK Ideograph>)
 4487	0x5005	倅 (<CJK Ideograph>)
 4488	0x4F1C	伜 (<CJK Ideograph>)
 4489	0x4FF6	俶 (<CJK Ideograph>)
 4490	0x5021	倡 (<CJK Ideograph>)
 4491	0x5029	倩 (<CJK Ideograph>)
 4492	0x502C	倬 (<CJK Ideograph>)
 4493	0x4FFE	俾 (<CJK Ideograph>)
 4494	0x4FEF	俯 (<CJK Ideograph>)
 4495	0x5011	們 (<CJK Ideograph>)
 4496	0x5006	倆 (<CJK Ideograph>)
 4497	0x5043	偃 (<CJK Ideograph>)
 4498	0x5047	假 (<CJK Ideograph>)
 4499	0x6703	會 (<CJK Ideograph>)
 4500	0x5055	偕 (<CJK Ideograph>)
 4501	0x5050	偐 (<CJK Ideograph>)
 4502	0x5048	偈 (<CJK Ideograph>)
 4503	0x505A	做 (<CJK Ideograph>)
 4504	0x5056	偖 (<CJK Ideograph>)
 4505	0x506C	偬 (<CJK Ideograph>)
 4506	0x5078	偸 (<CJK Ideograph>)
 4507	0x5080	傀 (<CJK Ideograph>)
 4508	0x509A	傚 (<CJK Ideograph>)
 4509	0x5085	傅 (<CJK Ideograph>)
 4510	0x50B4	傴 (<CJK Ideograph>)
 4511	0x50B2	傲 (<CJK Ideograph>)
"#

/-- encoding_tables/whatwg/index-jis0208.txt:3673-3860 -/
noncomputable def index24 : List Text := lines! r#" 4512	0x50C9	僉 (<CJK Ideograph>)
 4513	0x50CA	僊 (<CJK Ideograph>)
 4514	0x50B3	傳 (<CJK Ideograph>)
 4515	0x50C2	僂 (<CJK Ideograph>)
 4516	0x50D6	僖 (<CJK Ideograph>)
 4517	0x50DE	僞 (<CJK Ideograph>)
 4518	0x50E5	僥 (<CJK Ideograph>)
 4519	0x50ED	僭 (<CJK Ideograph>)
 4520	0x50E3	僣 (<CJK Ideograph>)
 4521	0x50EE	僮 (<CJK Ideograph>)
 4522	0x50F9	價 (<CJK Ideograph>)
 4523	0x50F5	僵 (<CJK Ideograph>)
 4524	0x5109	儉 (<CJK Ideograph>)
 4525	0x5101	儁 (<CJK Ideograph>)
 4526	0x5102	儂 (<CJK Ideograph>)
 4527	0x5116	儖 (<CJK Ideograph>)
 4528	0x5115	儕 (<CJK Ideograph>)
 4529	0x5114	儔 (<CJK Ideograph>)
 4530	0x511A	儚 (<CJK Ideograph>)
 4531	0x5121	儡 (<CJK Ideograph>)
 4532	0x513A	儺 (<CJK Ideograph>)
 4533	0x5137	儷 (<CJK Ideograph>)
 4534	0x513C	儼 (<CJK Ideograph>)
 4535	0x513B	儻 (<CJK Ideograph>)
 4536	0x513F	儿 (<CJK Ideograph>)
 4537	0x5140	兀 (<CJK Ideograph>)
 4538	0x5152	兒 (<CJK Ideograph>)
 4539	0x514C	兌 (<CJK Ideograph>)
 4540	0x5154	兔 (<CJK Ideograph>)
 4541	0x5162	兢 (<CJK Ideograph>)
 4542	0x7AF8	竸 (<CJK Ideograph>)
 4543	0x5169	兩 (<CJK Ideograph>)
 4544	0x516A	兪 (<CJK Ideograph>)
 4545	0x516E	兮 (<CJK Ideograph>)
 4546	0x5180	冀 (<CJK Ideograph>)
 4547	0x5182	冂 (<CJK Ideograph>)
 4548	0x56D8	囘 (<CJK Ideograph>)
 4549	0x518C	册 (<CJK Ideograph>)
 4550	0x5189	冉 (<CJK Ideograph>)
 4551	0x518F	冏 (<CJK Ideograph>)
 4552	0x5191	冑 (<CJK Ideograph>)
 4553	0x5193	冓 (<CJK Ideograph>)
 4554	0x5195	冕 (<CJK Ideograph>)
 4555	0x5196	冖 (<CJK Ideograph>)
 4556	0x51A4	冤 (<CJK Ideograph>)
 4557	0x51A6	冦 (<CJK Ideograph>)
 4558	0x51A2	冢 (<CJK Ideograph>)
 4559	0x51A9	冩 (<CJK Ideograph>)
 4560	0x51AA	冪 (<CJK Ideograph>)
 4561	0x51AB	冫 (<CJK Ideograph>)
 4562	0x51B3	决 (<CJK Ideograph>)
 4563	0x51B1	冱 (<CJK Ideograph>)
 4564	0x51B2	冲 (<CJK Ideograph>)
 4565	0x51B0	冰 (<CJK Ideograph>)
 4566	0x51B5	况 (<CJK Ideograph>)
 4567	0x51BD	冽 (<CJK Ideograph>)
 4568	0x51C5	凅 (<CJK Ideograph>)
 4569	0x51C9	凉 (<CJK Ideograph>)
 4570	0x51DB	凛 (<CJK Ideograph>)
 4571	0x51E0	几 (<CJK Ideograph>)
 4572	0x8655	處 (<CJK Ideograph>)
 4573	0x51E9	凩 (<CJK Ideograph>)
 4574	0x51ED	凭 (<CJK Ideograph>)
 4575	0x51F0	凰 (<CJK Ideograph>)
 4576	0x51F5	凵 (<CJK Ideograph>)
 4577	0x51FE	凾 (<CJK Ideograph>)
 4578	0x5204	刄 (<CJK Ideograph>)
 4579	0x520B	刋 (<CJK Ideograph>)
 4580	0x5214	刔 (<CJK Ideograph>)
 4581	0x520E	刎 (<CJK Ideograph>)
 4582	0x5227	刧 (<CJK Ideograph>)
 4583	0x522A	刪 (<CJK Ideograph>)
 4584	0x522E	刮 (<CJK Ideograph>)
 4585	0x5233	刳 (<CJK Ideograph>)
 4586	0x5239	刹 (<CJK Ideograph>)
 4587	0x524F	剏 (<CJK Ideograph>)
 4588	0x5244	剄 (<CJK Ideograph>)
 4589	0x524B	剋 (<CJK Ideograph>)
 4590	0x524C	剌 (<CJK Ideograph>)
 4591	0x525E	剞 (<CJK Ideograph>)
 4592	0x5254	剔 (<CJK Ideograph>)
 4593	0x526A	剪 (<CJK Ideograph>)
 4594	0x5274	剴 (<CJK Ideograph>)
 4595	0x5269	剩 (<CJK Ideograph>)
 4596	0x5273	剳 (<CJK Ideograph>)
 4597	0x527F	剿 (<CJK Ideograph>)
 4598	0x527D	剽 (<CJK Ideograph>)
 4599	0x528D	劍 (<CJK Ideograph>)
 4600	0x5294	劔 (<CJK Ideograph>)
 4601	0x5292	劒 (<CJK Ideograph>)
 4602	0x5271	剱 (<CJK Ideograph>)
 4603	0x5288	劈 (<CJK Ideograph>)
 4604	0x5291	劑 (<CJK Ideograph>)
 4605	0x8FA8	辨 (<CJK Ideograph>)
 4606	0x8FA7	辧 (<CJK Ideograph>)
 4607	0x52AC	劬 (<CJK Ideograph>)
 4608	0x52AD	劭 (<CJK Ideograph>)
 4609	0x52BC	劼 (<CJK Ideograph>)
 4610	0x52B5	劵 (<CJK Ideograph>)
 4611	0x52C1	勁 (<CJK Ideograph>)
 4612	0x52CD	勍 (<CJK Ideograph>)
 4613	0x52D7	勗 (<CJK Ideograph>)
 4614	0x52DE	勞 (<CJK Ideograph>)
 4615	0x52E3	勣 (<CJK Ideograph>)
 4616	0x52E6	勦 (<CJK Ideograph>)
 4617	0x98ED	飭 (<CJK Ideograph>)
 4618	0x52E0	勠 (<CJK Ideograph>)
 4619	0x52F3	勳 (<CJK Ideograph>)
 4620	0x52F5	勵 (<CJK Ideograph>)
 4621	0x52F8	勸 (<CJK Ideograph>)
 4622	0x52F9	勹 (<CJK Ideograph>)
 4623	0x5306	匆 (<CJK Ideograph>)
 4624	0x5308	匈 (<CJK Ideograph>)
 4625	0x7538	甸 (<CJK Ideograph>)
 4626	0x530D	匍 (<CJK Ideograph>)
 4627	0x5310	匐 (<CJK Ideograph>)
 4628	0x530F	匏 (<CJK Ideograph>)
 4629	0x5315	匕 (<CJK Ideograph>)
 4630	0x531A	匚 (<CJK Ideograph>)
 4631	0x5323	匣 (<CJK Ideograph>)
 4632	0x532F	匯 (<CJK Ideograph>)
 4633	0x5331	匱 (<CJK Ideograph>)
 4634	0x5333	匳 (<CJK Ideograph>)
 4635	0x5338	匸 (<CJK Ideograph>)
 4636	0x5340	區 (<CJK Ideograph>)
 4637	0x5346	卆 (<CJK Ideograph>)
 4638	0x5345	卅 (<CJK Ideograph>)
 4639	0x4E17	丗 (<CJK Ideograph>)
 4640	0x5349	卉 (<CJK Ideograph>)
 4641	0x534D	卍 (<CJK Ideograph>)
 4642	0x51D6	凖 (<CJK Ideograph>)
 4643	0x535E	卞 (<CJK Ideograph>)
 4644	0x5369	卩 (<CJK Ideograph>)
 4645	0x536E	卮 (<CJK Ideograph>)
 4646	0x5918	夘 (<CJK Ideograph>)
 4647	0x537B	卻 (<CJK Ideograph>)
 4648	0x5377	卷 (<CJK Ideograph>)
 4649	0x5382	厂 (<CJK Ideograph>)
 4650	0x5396	厖 (<CJK Ideograph>)
 4651	0x53A0	厠 (<CJK Ideograph>)
 4652	0x53A6	厦 (<CJK Ideograph>)
 4653	0x53A5	厥 (<CJK Ideograph>)
 4654	0x53AE	厮 (<CJK Ideograph>)
 4655	0x53B0	厰 (<CJK Ideograph>)
 4656	0x53B6	厶 (<CJK Ideograph>)
 4657	0x53C3	參 (<CJK Ideograph>)
 4658	0x7C12	簒 (<CJK Ideograph>)
 4659	0x96D9	雙 (<CJK Ideograph>)
 4660	0x53DF	叟 (<CJK Ideograph>)
 4661	0x66FC	曼 (<CJK Ideograph>)
 4662	0x71EE	燮 (<CJK Ideograph>)
 4663	0x53EE	叮 (<CJK Ideograph>)
 4664	0x53E8	叨 (<CJK Ideograph>)
 4665	0x53ED	叭 (<CJK Ideograph>)
 4666	0x53FA	叺 (<CJK Ideograph>)
 4667	0x5401	吁 (<CJK Ideograph>)
 4668	0x543D	吽 (<CJK Ideograph>)
 4669	0x5440	呀 (<CJK Ideograph>)
 4670	0x542C	听 (<CJK Ideograph>)
 4671	0x542D	吭 (<CJK Ideograph>)
 4672	0x543C	吼 (<CJK Ideograph>)
 4673	0x542E	吮 (<CJK Ideograph>)
 4674	0x5436	吶 (<CJK Ideograph>)
 4675	0x5429	吩 (<CJK Ideograph>)
 4676	0x541D	吝 (<CJK Ideograph>)
 4677	0x544E	呎 (<CJK Ideograph>)
 4678	0x548F	咏 (<CJK Ideograph>)
 4679	0x5475	呵 (<CJK Ideograph>)
 4680	0x548E	咎 (<CJK Ideograph>)
 4681	0x545F	呟 (<CJK Ideograph>)
 4682	0x5471	呱 (<CJK Ideograph>)
 4683	0x5477	呷 (<CJK Ideograph>)
 4684	0x5470	呰 (<CJK Ideograph>)
 4685	0x5492	咒 (<CJK Ideograph>)
 4686	0x547B	呻 (<CJK Ideograph>)
 4687	0x5480	咀 (<CJK Ideograph>)
 4688	0x5476	呶 (<CJK Ideograph>)
 4689	0x5484	咄 (<CJK Ideograph>)
 4690	0x5490	咐 (<CJK Ideograph>)
 4691	0x5486	咆 (<CJK Ideograph>)
 4692	0x54C7	哇 (<CJK Ideograph>)
 4693	0x54A2	咢 (<CJK Ideograph>)
 4694	0x54B8	咸 (<CJK Ideograph>)
 4695	0x54A5	咥 (<CJK Ideograph>)
 4696	0x54AC	咬 (<CJK Ideograph>)
 4697	0x54C4	哄 (<CJK Ideograph>)
 4698	0x54C8	哈 (<CJK Ideograph>)
 4699	0x54A8	咨 (<CJK Ideograph>)
"#

/-- encoding_tables/whatwg/index-jis0208.txt:3861-4048 -/
noncomputable def index25 : List Text := lines! r#" 4700	0x54AB	咫 (<CJK Ideograph>)
 4701	0x54C2	哂 (<CJK Ideograph>)
 4702	0x54A4	咤 (<CJK Ideograph>)
 4703	0x54BE	咾 (<CJK Ideograph>)
 4704	0x54BC	咼 (<CJK Ideograph>)
 4705	0x54D8	哘 (<CJK Ideograph>)
 4706	0x54E5	哥 (<CJK Ideograph>)
 4707	0x54E6	哦 (<CJK Ideograph>)
 4708	0x550F	唏 (<CJK Ideograph>)
 4709	0x5514	唔 (<CJK Ideograph>)
 4710	0x54FD	哽 (<CJK Ideograph>)
 4711	0x54EE	哮 (<CJK Ideograph>)
 4712	0x54ED	哭 (<CJK Ideograph>)
 4713	0x54FA	哺 (<CJK Ideograph>)
 4714	0x54E2	哢 (<CJK Ideograph>)
 4715	0x5539	唹 (<CJK Ideograph>)
 4716	0x5540	啀 (<CJK Ideograph>)
 4717	0x5563	啣 (<CJK Ideograph>)
 4718	0x554C	啌 (<CJK Ideograph>)
 4719	0x552E	售 (<CJK Ideograph>)
 4720	0x555C	啜 (<CJK Ideograph>)
 4721	0x5545	啅 (<CJK Ideograph>)
 4722	0x5556	啖 (<CJK Ideograph>)
 4723	0x5557	啗 (<CJK Ideograph>)
 4724	0x5538	唸 (<CJK Ideograph>)
 4725	0x5533	唳 (<CJK Ideograph>)
 4726	0x555D	啝 (<CJK Ideograph>)
 4727	0x5599	喙 (<CJK Ideograph>)
 4728	0x5580	喀 (<CJK Ideograph>)
 4729	0x54AF	咯 (<CJK Ideograph>)
 4730	0x558A	喊 (<CJK Ideograph>)
 4731	0x559F	喟 (<CJK Ideograph>)
 4732	0x557B	啻 (<CJK Ideograph>)
 4733	0x557E	啾 (<CJK Ideograph>)
 4734	0x5598	喘 (<CJK Ideograph>)
 4735	0x559E	喞 (<CJK Ideograph>)
 4736	0x55AE	單 (<CJK Ideograph>)
 4737	0x557C	啼 (<CJK Ideograph>)
 4738	0x5583	喃 (<CJK Ideograph>)
 4739	0x55A9	喩 (<CJK Ideograph>)
 4740	0x5587	喇 (<CJK Ideograph>)
 4741	0x55A8	喨 (<CJK Ideograph>)
 4742	0x55DA	嗚 (<CJK Ideograph>)
 4743	0x55C5	嗅 (<CJK Ideograph>)
 4744	0x55DF	嗟 (<CJK Ideograph>)
 4745	0x55C4	嗄 (<CJK Ideograph>)
 4746	0x55DC	嗜 (<CJK Ideograph>)
 4747	0x55E4	嗤 (<CJK Ideograph>)
 4748	0x55D4	嗔 (<CJK Ideograph>)
 4749	0x5614	嘔 (<CJK Ideograph>)
 4750	0x55F7	嗷 (<CJK Ideograph>)
 4751	0x5616	嘖 (<CJK Ideograph>)
 4752	0x55FE	嗾 (<CJK Ideograph>)
 4753	0x55FD	嗽 (<CJK Ideograph>)
 4754	0x561B	嘛 (<CJK Ideograph>)
 4755	0x55F9	嗹 (<CJK Ideograph>)
 4756	0x564E	噎 (<CJK Ideograph>)
 4757	0x5650	噐 (<CJK Ideograph>)
 4758	0x71DF	營 (<CJK Ideograph>)
 4759	0x5634	嘴 (<CJK Ideograph>)
 4760	0x5636	嘶 (<CJK Ideograph>)
 4761	0x5632	嘲 (<CJK Ideograph>)
 4762	0x5638	嘸 (<CJK Ideograph>)
 4763	0x566B	噫 (<CJK Ideograph>)
 4764	0x5664	噤 (<CJK Ideograph>)
 4765	0x562F	嘯 (<CJK Ideograph>)
 4766	0x566C	噬 (<CJK Ideograph>)
 4767	0x566A	噪 (<CJK Ideograph>)
 4768	0x5686	嚆 (<CJK Ideograph>)
 4769	0x5680	嚀 (<CJK Ideograph>)
 4770	0x568A	嚊 (<CJK Ideograph>)
 4771	0x56A0	嚠 (<CJK Ideograph>)
 4772	0x5694	嚔 (<CJK Ideograph>)
 4773	0x568F	嚏 (<CJK Ideograph>)
 4774	0x56A5	嚥 (<CJK Ideograph>)
 4775	0x56AE	嚮 (<CJK Ideograph>)
 4776	0x56B6	嚶 (<CJK Ideograph>)
 4777	0x56B4	嚴 (<CJK Ideograph>)
 4778	0x56C2	囂 (<CJK Ideograph>)
 4779	0x56BC	嚼 (<CJK Ideograph>)
 4780	0x56C1	囁 (<CJK Ideograph>)
 4781	0x56C3	囃 (<CJK Ideograph>)
 4782	0x56C0	囀 (<CJK Ideograph>)
 4783	0x56C8	囈 (<CJK Ideograph>)
 4784	0x56CE	囎 (<CJK Ideograph>)
 4785	0x56D1	囑 (<CJK Ideograph>)
 4786	0x56D3	囓 (<CJK Ideograph>)
 4787	0x56D7	囗 (<CJK Ideograph>)
 4788	0x56EE	囮 (<CJK Ideograph>)
 4789	0x56F9	囹 (<CJK Ideograph>)
 4790	0x5700	圀 (<CJK Ideograph>)
 4791	0x56FF	囿 (<CJK Ideograph>)
 4792	0x5704	圄 (<CJK Ideograph>)
 4793	0x5709	圉 (<CJK Ideograph>)
 4794	0x5708	圈 (<CJK Ideograph>)
 4795	0x570B	國 (<CJK Ideograph>)
 4796	0x570D	圍 (<CJK Ideograph>)
 4797	0x5713	圓 (<CJK Ideograph>)
 4798	0x5718	團 (<CJK Ideograph>)
 4799	0x5716	圖 (<CJK Ideograph>)
 4800	0x55C7	嗇 (<CJK Ideograph>)
 4801	0x571C	圜 (<CJK Ideograph>)
 4802	0x5726	圦 (<CJK Ideograph>)
 4803	0x5737	圷 (<CJK Ideograph>)
 4804	0x5738	圸 (<CJK Ideograph>)
 4805	0x574E	坎 (<CJK Ideograph>)
 4806	0x573B	圻 (<CJK Ideograph>)
 4807	0x5740	址 (<CJK Ideograph>)
 4808	0x574F	坏 (<CJK Ideograph>)
 4809	0x5769	坩 (<CJK Ideograph>)
 4810	0x57C0	埀 (<CJK Ideograph>)
 4811	0x5788	垈 (<CJK Ideograph>)
 4812	0x5761	坡 (<CJK Ideograph>)
 4813	0x577F	坿 (<CJK Ideograph>)
 4814	0x5789	垉 (<CJK Ideograph>)
 4815	0x5793	垓 (<CJK Ideograph>)
 4816	0x57A0	垠 (<CJK Ideograph>)
 4817	0x57B3	垳 (<CJK Ideograph>)
 4818	0x57A4	垤 (<CJK Ideograph>)
 4819	0x57AA	垪 (<CJK Ideograph>)
 4820	0x57B0	垰 (<CJK Ideograph>)
 4821	0x57C3	埃 (<CJK Ideograph>)
 4822	0x57C6	埆 (<CJK Ideograph>)
 4823	0x57D4	埔 (<CJK Ideograph>)
 4824	0x57D2	埒 (<CJK Ideograph>)
 4825	0x57D3	埓 (<CJK Ideograph>)
 4826	0x580A	堊 (<CJK Ideograph>)
 4827	0x57D6	埖 (<CJK Ideograph>)
 4828	0x57E3	埣 (<CJK Ideograph>)
 4829	0x580B	堋 (<CJK Ideograph>)
 4830	0x5819	堙 (<CJK Ideograph>)
 4831	0x581D	堝 (<CJK Ideograph>)
 4832	0x5872	塲 (<CJK Ideograph>)
 4833	0x5821	堡 (<CJK Ideograph>)
 4834	0x5862	塢 (<CJK Ideograph>)
 4835	0x584B	塋 (<CJK Ideograph>)
 4836	0x5870	塰 (<CJK Ideograph>)
 4837	0x6BC0	毀 (<CJK Ideograph>)
 4838	0x5852	塒 (<CJK Ideograph>)
 4839	0x583D	堽 (<CJK Ideograph>)
 4840	0x5879	塹 (<CJK Ideograph>)
 4841	0x5885	墅 (<CJK Ideograph>)
 4842	0x58B9	墹 (<CJK Ideograph>)
 4843	0x589F	墟 (<CJK Ideograph>)
 4844	0x58AB	墫 (<CJK Ideograph>)
 4845	0x58BA	墺 (<CJK Ideograph>)
 4846	0x58DE	壞 (<CJK Ideograph>)
 4847	0x58BB	墻 (<CJK Ideograph>)
 4848	0x58B8	墸 (<CJK Ideograph>)
 4849	0x58AE	墮 (<CJK Ideograph>)
 4850	0x58C5	壅 (<CJK Ideograph>)
 4851	0x58D3	壓 (<CJK Ideograph>)
 4852	0x58D1	壑 (<CJK Ideograph>)
 4853	0x58D7	壗 (<CJK Ideograph>)
 4854	0x58D9	壙 (<CJK Ideograph>)
 4855	0x58D8	壘 (<CJK Ideograph>)
 4856	0x58E5	壥 (<CJK Ideograph>)
 4857	0x58DC	壜 (<CJK Ideograph>)
 4858	0x58E4	壤 (<CJK Ideograph>)
 4859	0x58DF	壟 (<CJK Ideograph>)
 4860	0x58EF	壯 (<CJK Ideograph>)
 4861	0x58FA	壺 (<CJK Ideograph>)
 4862	0x58F9	壹 (<CJK Ideograph>)
 4863	0x58FB	壻 (<CJK Ideograph>)
 4864	0x58FC	壼 (<CJK Ideograph>)
 4865	0x58FD	壽 (<CJK Ideograph>)
 4866	0x5902	夂 (<CJK Ideograph>)
 4867	0x590A	夊 (<CJK Ideograph>)
 4868	0x5910	夐 (<CJK Ideograph>)
 4869	0x591B	夛 (<CJK Ideograph>)
 4870	0x68A6	梦 (<CJK Ideograph>)
 4871	0x5925	夥 (<CJK Ideograph>)
 4872	0x592C	夬 (<CJK Ideograph>)
 4873	0x592D	夭 (<CJK Ideograph>)
 4874	0x5932	夲 (<CJK Ideograph>)
 4875	0x5938	夸 (<CJK Ideograph>)
 4876	0x593E	夾 (<CJK Ideograph>)
 4877	0x7AD2	竒 (<CJK Ideograph>)
 4878	0x5955	奕 (<CJK Ideograph>)
 4879	0x5950	奐 (<CJK Ideograph>)
 4880	0x594E	奎 (<CJK Ideograph>)
 4881	0x595A	奚 (<CJK Ideograph>)
 4882	0x5958	奘 (<CJK Ideograph>)
 4883	0x5962	奢 (<CJK Ideograph>)
 4884	0x5960	奠 (<CJK Ideograph>)
 4885	0x5967	奧 (<CJK Ideograph>)
 4886	0x596C	奬 (<CJK Ideograph>)
 4887	0x5969	奩 (<CJK Ideograph>)
"#

/-- encoding_tables/whatwg/index-jis0208.txt:4049-4236 -/
noncomputable def index26 : List Text := lines! r#" 4888	0x5978	奸 (<CJK Ideograph>)
 4889	0x5981	妁 (<CJK Ideograph>)
 4890	0x599D	妝 (<CJK Ideograph>)
 4891	0x4F5E	佞 (<CJK Ideograph>)
 4892	0x4FAB	侫 (<CJK Ideograph>)
 4893	0x59A3	妣 (<CJK Ideograph>)
 4894	0x59B2	妲 (<CJK Ideograph>)
 4895	0x59C6	姆 (<CJK Ideograph>)
 4896	0x59E8	姨 (<CJK Ideograph>)
 4897	0x59DC	姜 (<CJK Ideograph>)
 4898	0x598D	妍 (<CJK Ideograph>)
 4899	0x59D9	姙 (<CJK Ideograph>)
 4900	0x59DA	姚 (<CJK Ideograph>)
 4901	0x5A25	娥 (<CJK Ideograph>)
 4902	0x5A1F	娟 (<CJK Ideograph>)
 4903	0x5A11	娑 (<CJK Ideograph>)
 4904	0x5A1C	娜 (<CJK Ideograph>)
 4905	0x5A09	娉 (<CJK Ideograph>)
 4906	0x5A1A	娚 (<CJK Ideograph>)
 4907	0x5A40	婀 (<CJK Ideograph>)
 4908	0x5A6C	婬 (<CJK Ideograph>)
 4909	0x5A49	婉 (<CJK Ideograph>)
 4910	0x5A35	娵 (<CJK Ideograph>)
 4911	0x5A36	娶 (<CJK Ideograph>)
 4912	0x5A62	婢 (<CJK Ideograph>)
 4913	0x5A6A	婪 (<CJK Ideograph>)
 4914	0x5A9A	媚 (<CJK Ideograph>)
 4915	0x5ABC	媼 (<CJK Ideograph>)
 4916	0x5ABE	媾 (<CJK Ideograph>)
 4917	0x5ACB	嫋 (<CJK Ideograph>)
 4918	0x5AC2	嫂 (<CJK Ideograph>)
 4919	0x5ABD	媽 (<CJK Ideograph>)
 4920	0x5AE3	嫣 (<CJK Ideograph>)
 4921	0x5AD7	嫗 (<CJK Ideograph>)
 4922	0x5AE6	嫦 (<CJK Ideograph>)
 4923	0x5AE9	嫩 (<CJK Ideograph>)
 4924	0x5AD6	嫖 (<CJK Ideograph>)
 4925	0x5AFA	嫺 (<CJK Ideograph>)
 4926	0x5AFB	嫻 (<CJK Ideograph>)
 4927	0x5B0C	嬌 (<CJK Ideograph>)
 4928	0x5B0B	嬋 (<CJK Ideograph>)
 4929	0x5B16	嬖 (<CJK Ideograph>)
 4930	0x5B32	嬲 (<CJK Ideograph>)
 4931	0x5AD0	嫐 (<CJK Ideograph>)
 4932	0x5B2A	嬪 (<CJK Ideograph>)
 4933	0x5B36	嬶 (<CJK Ideograph>)
 4934	0x5B3E	嬾 (<CJK Ideograph>)
 4935	0x5B43	孃 (<CJK Ideograph>)
 4936	0x5B45	孅 (<CJK Ideograph>)
 4937	0x5B40	孀 (<CJK Ideograph>)
 4938	0x5B51	孑 (<CJK Ideograph>)
 4939	0x5B55	孕 (<CJK Ideograph>)
 4940	0x5B5A	孚 (<CJK Ideograph>)
 4941	0x5B5B	孛 (<CJK Ideograph>)
 4942	0x5B65	孥 (<CJK Ideograph>)
 4943	0x5B69	孩 (<CJK Ideograph>)
 4944	0x5B70	孰 (<CJK Ideograph>)
 4945	0x5B73	孳 (<CJK Ideograph>)
 4946	0x5B75	孵 (<CJK Ideograph>)
 4947	0x5B78	學 (<CJK Ideograph>)
 4948	0x6588	斈 (<CJK Ideograph>)
 4949	0x5B7A	孺 (<CJK Ideograph>)
 4950	0x5B80	宀 (<CJK Ideograph>)
 4951	0x5B83	它 (<CJK Ideograph>)
 4952	0x5BA6	宦 (<CJK Ideograph>)
 4953	0x5BB8	宸 (<CJK Ideograph>)
 4954	0x5BC3	寃 (<CJK Ideograph>)
 4955	0x5BC7	寇 (<CJK Ideograph>)
 4956	0x5BC9	寉 (<CJK Ideograph>)
 4957	0x5BD4	寔 (<CJK Ideograph>)
 4958	0x5BD0	寐 (<CJK Ideograph>)
 4959	0x5BE4	寤 (<CJK Ideograph>)
 4960	0x5BE6	實 (<CJK Ideograph>)
 4961	0x5BE2	寢 (<CJK Ideograph>)
 4962	0x5BDE	寞 (<CJK Ideograph>)
 4963	0x5BE5	寥 (<CJK Ideograph>)
 4964	0x5BEB	寫 (<CJK Ideograph>)
 4965	0x5BF0	寰 (<CJK Ideograph>)
 4966	0x5BF6	寶 (<CJK Ideograph>)
 4967	0x5BF3	寳 (<CJK Ideograph>)
 4968	0x5C05	尅 (<CJK Ideograph>)
 4969	0x5C07	將 (<CJK Ideograph>)
 4970	0x5C08	專 (<CJK Ideograph>)
 4971	0x5C0D	對 (<CJK Ideograph>)
 4972	0x5C13	尓 (<CJK Ideograph>)
 4973	0x5C20	尠 (<CJK Ideograph>)
 4974	0x5C22	尢 (<CJK Ideograph>)
 4975	0x5C28	尨 (<CJK Ideograph>)
 4976	0x5C38	尸 (<CJK Ideograph>)
 4977	0x5C39	尹 (<CJK Ideograph>)
 4978	0x5C41	屁 (<CJK Ideograph>)
 4979	0x5C46	屆 (<CJK Ideograph>)
 4980	0x5C4E	屎 (<CJK Ideograph>)
 4981	0x5C53	屓 (<CJK Ideograph>)
 4982	0x5C50	屐 (<CJK Ideograph>)
 4983	0x5C4F	屏 (<CJK Ideograph>)
 4984	0x5B71	孱 (<CJK Ideograph>)
 4985	0x5C6C	屬 (<CJK Ideograph>)
 4986	0x5C6E	屮 (<CJK Ideograph>)
 4987	0x4E62	乢 (<CJK Ideograph>)
 4988	0x5C76	屶 (<CJK Ideograph>)
 4989	0x5C79	屹 (<CJK Ideograph>)
 4990	0x5C8C	岌 (<CJK Ideograph>)
 4991	0x5C91	岑 (<CJK Ideograph>)
 4992	0x5C94	岔 (<CJK Ideograph>)
 4993	0x599B	妛 (<CJK Ideograph>)
 4994	0x5CAB	岫 (<CJK Ideograph>)
 4995	0x5CBB	岻 (<CJK Ideograph>)
 4996	0x5CB6	岶 (<CJK Ideograph>)
 4997	0x5CBC	岼 (<CJK Ideograph>)
 4998	0x5CB7	岷 (<CJK Ideograph>)
 4999	0x5CC5	峅 (<CJK Ideograph>)
 5000	0x5CBE	岾 (<CJK Ideograph>)
 5001	0x5CC7	峇 (<CJK Ideograph>)
 5002	0x5CD9	峙 (<CJK Ideograph>)
 5003	0x5CE9	峩 (<CJK Ideograph>)
 5004	0x5CFD	峽 (<CJK Ideograph>)
 5005	0x5CFA	峺 (<CJK Ideograph>)
 5006	0x5CED	峭 (<CJK Ideograph>)
 5007	0x5D8C	嶌 (<CJK Ideograph>)
 5008	0x5CEA	峪 (<CJK Ideograph>)
 5009	0x5D0B	崋 (<CJK Ideograph>)
 5010	0x5D15	崕 (<CJK Ideograph>)
 5011	0x5D17	崗 (<CJK Ideograph>)
 5012	0x5D5C	嵜 (<CJK Ideograph>)
 5013	0x5D1F	崟 (<CJK Ideograph>)
 5014	0x5D1B	崛 (<CJK Ideograph>)
 5015	0x5D11	崑 (<CJK Ideograph>)
 5016	0x5D14	崔 (<CJK Ideograph>)
 5017	0x5D22	崢 (<CJK Ideograph>)
 5018	0x5D1A	崚 (<CJK Ideograph>)
 5019	0x5D19	崙 (<CJK Ideograph>)
 5020	0x5D18	崘 (<CJK Ideograph>)
 5021	0x5D4C	嵌 (<CJK Ideograph>)
 5022	0x5D52	嵒 (<CJK Ideograph>)
 5023	0x5D4E	嵎 (<CJK Ideograph>)
 5024	0x5D4B	嵋 (<CJK Ideograph>)
 5025	0x5D6C	嵬 (<CJK Ideograph>)
 5026	0x5D73	嵳 (<CJK Ideograph>)
 5027	0x5D76	嵶 (<CJK Ideograph>)
 5028	0x5D87	嶇 (<CJK Ideograph>)
 5029	0x5D84	嶄 (<CJK Ideograph>)
 5030	0x5D82	嶂 (<CJK Ideograph>)
 5031	0x5DA2	嶢 (<CJK Ideograph>)
 5032	0x5D9D	嶝 (<CJK Ideograph>)
 5033	0x5DAC	嶬 (<CJK Ideograph>)
 5034	0x5DAE	嶮 (<CJK Ideograph>)
 5035	0x5DBD	嶽 (<CJK Ideograph>)
 5036	0x5D90	嶐 (<CJK Ideograph>)
 5037	0x5DB7	嶷 (<CJK Ideograph>)
 5038	0x5DBC	嶼 (<CJK Ideograph>)
 5039	0x5DC9	巉 (<CJK Ideograph>)
 5040	0x5DCD	巍 (<CJK Ideograph>)
 5041	0x5DD3	巓 (<CJK Ideograph>)
 5042	0x5DD2	巒 (<CJK Ideograph>)
 5043	0x5DD6	巖 (<CJK Ideograph>)
 5044	0x5DDB	巛 (<CJK Ideograph>)
 5045	0x5DEB	巫 (<CJK Ideograph>)
 5046	0x5DF2	已 (<CJK Ideograph>)
 5047	0x5DF5	巵 (<CJK Ideograph>)
 5048	0x5E0B	帋 (<CJK Ideograph>)
 5049	0x5E1A	帚 (<CJK Ideograph>)
 5050	0x5E19	帙 (<CJK Ideograph>)
 5051	0x5E11	帑 (<CJK Ideograph>)
 5052	0x5E1B	帛 (<CJK Ideograph>)
 5053	0x5E36	帶 (<CJK Ideograph>)
 5054	0x5E37	帷 (<CJK Ideograph>)
 5055	0x5E44	幄 (<CJK Ideograph>)
 5056	0x5E43	幃 (<CJK Ideograph>)
 5057	0x5E40	幀 (<CJK Ideograph>)
 5058	0x5E4E	幎 (<CJK Ideograph>)
 5059	0x5E57	幗 (<CJK Ideograph>)
 5060	0x5E54	幔 (<CJK Ideograph>)
 5061	0x5E5F	幟 (<CJK Ideograph>)
 5062	0x5E62	幢 (<CJK Ideograph>)
 5063	0x5E64	幤 (<CJK Ideograph>)
 5064	0x5E47	幇 (<CJK Ideograph>)
 5065	0x5E75	幵 (<CJK Ideograph>)
 5066	0x5E76	并 (<CJK Ideograph>)
 5067	0x5E7A	幺 (<CJK Ideograph>)
 5068	0x9EBC	麼 (<CJK Ideograph>)
 5069	0x5E7F	广 (<CJK Ideograph>)
 5070	0x5EA0	庠 (<CJK Ideograph>)
 5071	0x5EC1	廁 (<CJK Ideograph>)
 5072	0x5EC2	廂 (<CJK Ideograph>)
 5073	0x5EC8	廈 (<CJK Ideograph>)
 5074	0x5ED0	廐 (<CJK Ideograph>)
 5075	0x5ECF	廏 (<CJK Ideograph>)
"#

/-- encoding_tables/whatwg/index-jis0208.txt:4237-4424 -/
noncomputable def index27 : List Text := lines! r#" 5076	0x5ED6	廖 (<CJK Ideograph>)
 5077	0x5EE3	廣 (<CJK Ideograph>)
 5078	0x5EDD	廝 (<CJK Ideograph>)
 5079	0x5EDA	廚 (<CJK Ideograph>)
 5080	0x5EDB	廛 (<CJK Ideograph>)
 5081	0x5EE2	廢 (<CJK Ideograph>)
 5082	0x5EE1	廡 (<CJK Ideograph>)
 5083	0x5EE8	廨 (<CJK Ideograph>)
 5084	0x5EE9	廩 (<CJK Ideograph>)
 5085	0x5EEC	廬 (<CJK Ideograph>)
 5086	0x5EF1	廱 (<CJK Ideograph>)
 5087	0x5EF3	廳 (<CJK Ideograph>)
 5088	0x5EF0	廰 (<CJK Ideograph>)
 5089	0x5EF4	廴 (<CJK Ideograph>)
 5090	0x5EF8	廸 (<CJK Ideograph>)
 5091	0x5EFE	廾 (<CJK Ideograph>)
 5092	0x5F03	弃 (<CJK Ideograph>)
 5093	0x5F09	弉 (<CJK Ideograph>)
 5094	0x5F5D	彝 (<CJK Ideograph>)
 5095	0x5F5C	彜 (<CJK Ideograph>)
 5096	0x5F0B	弋 (<CJK Ideograph>)
 5097	0x5F11	弑 (<CJK Ideograph>)
 5098	0x5F16	弖 (<CJK Ideograph>)
 5099	0x5F29	弩 (<CJK Ideograph>)
 5100	0x5F2D	弭 (<CJK Ideograph>)
 5101	0x5F38	弸 (<CJK Ideograph>)
 5102	0x5F41	彁 (<CJK Ideograph>)
 5103	0x5F48	彈 (<CJK Ideograph>)
 5104	0x5F4C	彌 (<CJK Ideograph>)
 5105	0x5F4E	彎 (<CJK Ideograph>)
 5106	0x5F2F	弯 (<CJK Ideograph>)
 5107	0x5F51	彑 (<CJK Ideograph>)
 5108	0x5F56	彖 (<CJK Ideograph>)
 5109	0x5F57	彗 (<CJK Ideograph>)
 5110	0x5F59	彙 (<CJK Ideograph>)
 5111	0x5F61	彡 (<CJK Ideograph>)
 5112	0x5F6D	彭 (<CJK Ideograph>)
 5113	0x5F73	彳 (<CJK Ideograph>)
 5114	0x5F77	彷 (<CJK Ideograph>)
 5115	0x5F83	徃 (<CJK Ideograph>)
 5116	0x5F82	徂 (<CJK Ideograph>)
 5117	0x5F7F	彿 (<CJK Ideograph>)
 5118	0x5F8A	徊 (<CJK Ideograph>)
 5119	0x5F88	很 (<CJK Ideograph>)
 5120	0x5F91	徑 (<CJK Ideograph>)
 5121	0x5F87	徇 (<CJK Ideograph>)
 5122	0x5F9E	從 (<CJK Ideograph>)
 5123	0x5F99	徙 (<CJK Ideograph>)
 5124	0x5F98	徘 (<CJK Ideograph>)
 5125	0x5FA0	徠 (<CJK Ideograph>)
 5126	0x5FA8	徨 (<CJK Ideograph>)
 5127	0x5FAD	徭 (<CJK Ideograph>)
 5128	0x5FBC	徼 (<CJK Ideograph>)
 5129	0x5FD6	忖 (<CJK Ideograph>)
 5130	0x5FFB	忻 (<CJK Ideograph>)
 5131	0x5FE4	忤 (<CJK Ideograph>)
 5132	0x5FF8	忸 (<CJK Ideograph>)
 5133	0x5FF1	忱 (<CJK Ideograph>)
 5134	0x5FDD	忝 (<CJK Ideograph>)
 5135	0x60B3	悳 (<CJK Ideograph>)
 5136	0x5FFF	忿 (<CJK Ideograph>)
 5137	0x6021	怡 (<CJK Ideograph>)
 5138	0x6060	恠 (<CJK Ideograph>)
 5139	0x6019	怙 (<CJK Ideograph>)
 5140	0x6010	怐 (<CJK Ideograph>)
 5141	0x6029	怩 (<CJK Ideograph>)
 5142	0x600E	怎 (<CJK Ideograph>)
 5143	0x6031	怱 (<CJK Ideograph>)
 5144	0x601B	怛 (<CJK Ideograph>)
 5145	0x6015	怕 (<CJK Ideograph>)
 5146	0x602B	怫 (<CJK Ideograph>)
 5147	0x6026	怦 (<CJK Ideograph>)
 5148	0x600F	怏 (<CJK Ideograph>)
 5149	0x603A	怺 (<CJK Ideograph>)
 5150	0x605A	恚 (<CJK Ideograph>)
 5151	0x6041	恁 (<CJK Ideograph>)
 5152	0x606A	恪 (<CJK Ideograph>)
 5153	0x6077	恷 (<CJK Ideograph>)
 5154	0x605F	恟 (<CJK Ideograph>)
 5155	0x604A	恊 (<CJK Ideograph>)
 5156	0x6046	恆 (<CJK Ideograph>)
 5157	0x604D	恍 (<CJK Ideograph>)
 5158	0x6063	恣 (<CJK Ideograph>)
 5159	0x6043	恃 (<CJK Ideograph>)
 5160	0x6064	恤 (<CJK Ideograph>)
 5161	0x6042	恂 (<CJK Ideograph>)
 5162	0x606C	恬 (<CJK Ideograph>)
 5163	0x606B	恫 (<CJK Ideograph>)
 5164	0x6059	恙 (<CJK Ideograph>)
 5165	0x6081	悁 (<CJK Ideograph>)
 5166	0x608D	悍 (<CJK Ideograph>)
 5167	0x60E7	惧 (<CJK Ideograph>)
 5168	0x6083	悃 (<CJK Ideograph>)
 5169	0x609A	悚 (<CJK Ideograph>)
 5170	0x6084	悄 (<CJK Ideograph>)
 5171	0x609B	悛 (<CJK Ideograph>)
 5172	0x6096	悖 (<CJK Ideograph>)
 5173	0x6097	悗 (<CJK Ideograph>)
 5174	0x6092	悒 (<CJK Ideograph>)
 5175	0x60A7	悧 (<CJK Ideograph>)
 5176	0x608B	悋 (<CJK Ideograph>)
 5177	0x60E1	惡 (<CJK Ideograph>)
 5178	0x60B8	悸 (<CJK Ideograph>)
 5179	0x60E0	惠 (<CJK Ideograph>)
 5180	0x60D3	惓 (<CJK Ideograph>)
 5181	0x60B4	悴 (<CJK Ideograph>)
 5182	0x5FF0	忰 (<CJK Ideograph>)
 5183	0x60BD	悽 (<CJK Ideograph>)
 5184	0x60C6	惆 (<CJK Ideograph>)
 5185	0x60B5	悵 (<CJK Ideograph>)
 5186	0x60D8	惘 (<CJK Ideograph>)
 5187	0x614D	慍 (<CJK Ideograph>)
 5188	0x6115	愕 (<CJK Ideograph>)
 5189	0x6106	愆 (<CJK Ideograph>)
 5190	0x60F6	惶 (<CJK Ideograph>)
 5191	0x60F7	惷 (<CJK Ideograph>)
 5192	0x6100	愀 (<CJK Ideograph>)
 5193	0x60F4	惴 (<CJK Ideograph>)
 5194	0x60FA	惺 (<CJK Ideograph>)
 5195	0x6103	愃 (<CJK Ideograph>)
 5196	0x6121	愡 (<CJK Ideograph>)
 5197	0x60FB	惻 (<CJK Ideograph>)
 5198	0x60F1	惱 (<CJK Ideograph>)
 5199	0x610D	愍 (<CJK Ideograph>)
 5200	0x610E	愎 (<CJK Ideograph>)
 5201	0x6147	慇 (<CJK Ideograph>)
 5202	0x613E	愾 (<CJK Ideograph>)
 5203	0x6128	愨 (<CJK Ideograph>)
 5204	0x6127	愧 (<CJK Ideograph>)
 5205	0x614A	慊 (<CJK Ideograph>)
 5206	0x613F	愿 (<CJK Ideograph>)
 5207	0x613C	愼 (<CJK Ideograph>)
 5208	0x612C	愬 (<CJK Ideograph>)
 5209	0x6134	愴 (<CJK Ideograph>)
 5210	0x613D	愽 (<CJK Ideograph>)
 5211	0x6142	慂 (<CJK Ideograph>)
 5212	0x6144	慄 (<CJK Ideograph>)
 5213	0x6173	慳 (<CJK Ideograph>)
 5214	0x6177	慷 (<CJK Ideograph>)
 5215	0x6158	慘 (<CJK Ideograph>)
 5216	0x6159	慙 (<CJK Ideograph>)
 5217	0x615A	慚 (<CJK Ideograph>)
 5218	0x616B	慫 (<CJK Ideograph>)
 5219	0x6174	慴 (<CJK Ideograph>)
 5220	0x616F	慯 (<CJK Ideograph>)
 5221	0x6165	慥 (<CJK Ideograph>)
 5222	0x6171	慱 (<CJK Ideograph>)
 5223	0x615F	慟 (<CJK Ideograph>)
 5224	0x615D	慝 (<CJK Ideograph>)
 5225	0x6153	慓 (<CJK Ideograph>)
 5226	0x6175	慵 (<CJK Ideograph>)
 5227	0x6199	憙 (<CJK Ideograph>)
 5228	0x6196	憖 (<CJK Ideograph>)
 5229	0x6187	憇 (<CJK Ideograph>)
 5230	0x61AC	憬 (<CJK Ideograph>)
 5231	0x6194	憔 (<CJK Ideograph>)
 5232	0x619A	憚 (<CJK Ideograph>)
 5233	0x618A	憊 (<CJK Ideograph>)
 5234	0x6191	憑 (<CJK Ideograph>)
 5235	0x61AB	憫 (<CJK Ideograph>)
 5236	0x61AE	憮 (<CJK Ideograph>)
 5237	0x61CC	懌 (<CJK Ideograph>)
 5238	0x61CA	懊 (<CJK Ideograph>)
 5239	0x61C9	應 (<CJK Ideograph>)
 5240	0x61F7	懷 (<CJK Ideograph>)
 5241	0x61C8	懈 (<CJK Ideograph>)
 5242	0x61C3	懃 (<CJK Ideograph>)
 5243	0x61C6	懆 (<CJK Ideograph>)
 5244	0x61BA	憺 (<CJK Ideograph>)
 5245	0x61CB	懋 (<CJK Ideograph>)
 5246	0x7F79	罹 (<CJK Ideograph>)
 5247	0x61CD	懍 (<CJK Ideograph>)
 5248	0x61E6	懦 (<CJK Ideograph>)
 5249	0x61E3	懣 (<CJK Ideograph>)
 5250	0x61F6	懶 (<CJK Ideograph>)
 5251	0x61FA	懺 (<CJK Ideograph>)
 5252	0x61F4	懴 (<CJK Ideograph>)
 5253	0x61FF	懿 (<CJK Ideograph>)
 5254	0x61FD	懽 (<CJK Ideograph>)
 5255	0x61FC	懼 (<CJK Ideograph>)
 5256	0x61FE	懾 (<CJK Ideograph>)
 5257	0x6200	戀 (<CJK Ideograph>)
 5258	0x6208	戈 (<CJK Ideograph>)
 5259	0x6209	戉 (<CJK Ideograph>)
 5260	0x620D	戍 (<CJK Ideograph>)
 5261	0x620C	戌 (<CJK Ideograph>)
 5262	0x6214	戔 (<CJK Ideograph>)
 5263	0x621B	戛 (<CJK Ideograph>)
"#

/-- encoding_tables/whatwg/index-jis0208.txt:4425-4612 -/
noncomputable def index28 : List Text := lines! r#" 5264	0x621E	戞 (<CJK Ideograph>)
 5265	0x6221	戡 (<CJK Ideograph>)
 5266	0x622A	截 (<CJK Ideograph>)
 5267	0x622E	戮 (<CJK Ideograph>)
 5268	0x6230	戰 (<CJK Ideograph>)
 5269	0x6232	戲 (<CJK Ideograph>)
 5270	0x6233	戳 (<CJK Ideograph>)
 5271	0x6241	扁 (<CJK Ideograph>)
 5272	0x624E	扎 (<CJK Ideograph>)
 5273	0x625E	扞 (<CJK Ideograph>)
 5274	0x6263	扣 (<CJK Ideograph>)
 5275	0x625B	扛 (<CJK Ideograph>)
 5276	0x6260	扠 (<CJK Ideograph>)
 5277	0x6268	扨 (<CJK Ideograph>)
 5278	0x627C	扼 (<CJK Ideograph>)
 5279	0x6282	抂 (<CJK Ideograph>)
 5280	0x6289	抉 (<CJK Ideograph>)
 5281	0x627E	找 (<CJK Ideograph>)
 5282	0x6292	抒 (<CJK Ideograph>)
 5283	0x6293	抓 (<CJK Ideograph>)
 5284	0x6296	抖 (<CJK Ideograph>)
 5285	0x62D4	拔 (<CJK Ideograph>)
 5286	0x6283	抃 (<CJK Ideograph>)
 5287	0x6294	抔 (<CJK Ideograph>)
 5288	0x62D7	拗 (<CJK Ideograph>)
 5289	0x62D1	拑 (<CJK Ideograph>)
 5290	0x62BB	抻 (<CJK Ideograph>)
 5291	0x62CF	拏 (<CJK Ideograph>)
 5292	0x62FF	拿 (<CJK Ideograph>)
 5293	0x62C6	拆 (<CJK Ideograph>)
 5294	0x64D4	擔 (<CJK Ideograph>)
 5295	0x62C8	拈 (<CJK Ideograph>)
 5296	0x62DC	拜 (<CJK Ideograph>)
 5297	0x62CC	拌 (<CJK Ideograph>)
 5298	0x62CA	拊 (<CJK Ideograph>)
 5299	0x62C2	拂 (<CJK Ideograph>)
 5300	0x62C7	拇 (<CJK Ideograph>)
 5301	0x629B	抛 (<CJK Ideograph>)
 5302	0x62C9	拉 (<CJK Ideograph>)
 5303	0x630C	挌 (<CJK Ideograph>)
 5304	0x62EE	拮 (<CJK Ideograph>)
 5305	0x62F1	拱 (<CJK Ideograph>)
 5306	0x6327	挧 (<CJK Ideograph>)
 5307	0x6302	挂 (<CJK Ideograph>)
 5308	0x6308	挈 (<CJK Ideograph>)
 5309	0x62EF	拯 (<CJK Ideograph>)
 5310	0x62F5	拵 (<CJK Ideograph>)
 5311	0x6350	捐 (<CJK Ideograph>)
 5312	0x633E	挾 (<CJK Ideograph>)
 5313	0x634D	捍 (<CJK Ideograph>)
 5314	0x641C	搜 (<CJK Ideograph>)
 5315	0x634F	捏 (<CJK Ideograph>)
 5316	0x6396	掖 (<CJK Ideograph>)
 5317	0x638E	掎 (<CJK Ideograph>)
 5318	0x6380	掀 (<CJK Ideograph>)
 5319	0x63AB	掫 (<CJK Ideograph>)
 5320	0x6376	捶 (<CJK Ideograph>)
 5321	0x63A3	掣 (<CJK Ideograph>)
 5322	0x638F	掏 (<CJK Ideograph>)
 5323	0x6389	掉 (<CJK Ideograph>)
 5324	0x639F	掟 (<CJK Ideograph>)
 5325	0x63B5	掵 (<CJK Ideograph>)
 5326	0x636B	捫 (<CJK Ideograph>)
 5327	0x6369	捩 (<CJK Ideograph>)
 5328	0x63BE	掾 (<CJK Ideograph>)
 5329	0x63E9	揩 (<CJK Ideograph>)
 5330	0x63C0	揀 (<CJK Ideograph>)
 5331	0x63C6	揆 (<CJK Ideograph>)
 5332	0x63E3	揣 (<CJK Ideograph>)
 5333	0x63C9	揉 (<CJK Ideograph>)
 5334	0x63D2	插 (<CJK Ideograph>)
 5335	0x63F6	揶 (<CJK Ideograph>)
 5336	0x63C4	揄 (<CJK Ideograph>)
 5337	0x6416	搖 (<CJK Ideograph>)
 5338	0x6434	搴 (<CJK Ideograph>)
 5339	0x6406	搆 (<CJK Ideograph>)
 5340	0x6413	搓 (<CJK Ideograph>)
 5341	0x6426	搦 (<CJK Ideograph>)
 5342	0x6436	搶 (<CJK Ideograph>)
 5343	0x651D	攝 (<CJK Ideograph>)
 5344	0x6417	搗 (<CJK Ideograph>)
 5345	0x6428	搨 (<CJK Ideograph>)
 5346	0x640F	搏 (<CJK Ideograph>)
 5347	0x6467	摧 (<CJK Ideograph>)
 5348	0x646F	摯 (<CJK Ideograph>)
 5349	0x6476	摶 (<CJK Ideograph>)
 5350	0x644E	摎 (<CJK Ideograph>)
 5351	0x652A	攪 (<CJK Ideograph>)
 5352	0x6495	撕 (<CJK Ideograph>)
 5353	0x6493	撓 (<CJK Ideograph>)
 5354	0x64A5	撥 (<CJK Ideograph>)
 5355	0x64A9	撩 (<CJK Ideograph>)
 5356	0x6488	撈 (<CJK Ideograph>)
 5357	0x64BC	撼 (<CJK Ideograph>)
 5358	0x64DA	據 (<CJK Ideograph>)
 5359	0x64D2	擒 (<CJK Ideograph>)
 5360	0x64C5	擅 (<CJK Ideograph>)
 5361	0x64C7	擇 (<CJK Ideograph>)
 5362	0x64BB	撻 (<CJK Ideograph>)
 5363	0x64D8	擘 (<CJK Ideograph>)
 5364	0x64C2	擂 (<CJK Ideograph>)
 5365	0x64F1	擱 (<CJK Ideograph>)
 5366	0x64E7	擧 (<CJK Ideograph>)
 5367	0x8209	舉 (<CJK Ideograph>)
 5368	0x64E0	擠 (<CJK Ideograph>)
 5369	0x64E1	擡 (<CJK Ideograph>)
 5370	0x62AC	抬 (<CJK Ideograph>)
 5371	0x64E3	擣 (<CJK Ideograph>)
 5372	0x64EF	擯 (<CJK Ideograph>)
 5373	0x652C	攬 (<CJK Ideograph>)
 5374	0x64F6	擶 (<CJK Ideograph>)
 5375	0x64F4	擴 (<CJK Ideograph>)
 5376	0x64F2	擲 (<CJK Ideograph>)
 5377	0x64FA	擺 (<CJK Ideograph>)
 5378	0x6500	攀 (<CJK Ideograph>)
 5379	0x64FD	擽 (<CJK Ideograph>)
 5380	0x6518	攘 (<CJK Ideograph>)
 5381	0x651C	攜 (<CJK Ideograph>)
 5382	0x6505	攅 (<CJK Ideograph>)
 5383	0x6524	攤 (<CJK Ideograph>)
 5384	0x6523	攣 (<CJK Ideograph>)
 5385	0x652B	攫 (<CJK Ideograph>)
 5386	0x6534	攴 (<CJK Ideograph>)
 5387	0x6535	攵 (<CJK Ideograph>)
 5388	0x6537	攷 (<CJK Ideograph>)
 5389	0x6536	收 (<CJK Ideograph>)
 5390	0x6538	攸 (<CJK Ideograph>)
 5391	0x754B	畋 (<CJK Ideograph>)
 5392	0x6548	效 (<CJK Ideograph>)
 5393	0x6556	敖 (<CJK Ideograph>)
 5394	0x6555	敕 (<CJK Ideograph>)
 5395	0x654D	敍 (<CJK Ideograph>)
 5396	0x6558	敘 (<CJK Ideograph>)
 5397	0x655E	敞 (<CJK Ideograph>)
 5398	0x655D	敝 (<CJK Ideograph>)
 5399	0x6572	敲 (<CJK Ideograph>)
 5400	0x6578	數 (<CJK Ideograph>)
 5401	0x6582	斂 (<CJK Ideograph>)
 5402	0x6583	斃 (<CJK Ideograph>)
 5403	0x8B8A	變 (<CJK Ideograph>)
 5404	0x659B	斛 (<CJK Ideograph>)
 5405	0x659F	斟 (<CJK Ideograph>)
 5406	0x65AB	斫 (<CJK Ideograph>)
 5407	0x65B7	斷 (<CJK Ideograph>)
 5408	0x65C3	旃 (<CJK Ideograph>)
 5409	0x65C6	旆 (<CJK Ideograph>)
 5410	0x65C1	旁 (<CJK Ideograph>)
 5411	0x65C4	旄 (<CJK Ideograph>)
 5412	0x65CC	旌 (<CJK Ideograph>)
 5413	0x65D2	旒 (<CJK Ideograph>)
 5414	0x65DB	旛 (<CJK Ideograph>)
 5415	0x65D9	旙 (<CJK Ideograph>)
 5416	0x65E0	无 (<CJK Ideograph>)
 5417	0x65E1	旡 (<CJK Ideograph>)
 5418	0x65F1	旱 (<CJK Ideograph>)
 5419	0x6772	杲 (<CJK Ideograph>)
 5420	0x660A	昊 (<CJK Ideograph>)
 5421	0x6603	昃 (<CJK Ideograph>)
 5422	0x65FB	旻 (<CJK Ideograph>)
 5423	0x6773	杳 (<CJK Ideograph>)
 5424	0x6635	昵 (<CJK Ideograph>)
 5425	0x6636	昶 (<CJK Ideograph>)
 5426	0x6634	昴 (<CJK Ideograph>)
 5427	0x661C	昜 (<CJK Ideograph>)
 5428	0x664F	晏 (<CJK Ideograph>)
 5429	0x6644	晄 (<CJK Ideograph>)
 5430	0x6649	晉 (<CJK Ideograph>)
 5431	0x6641	晁 (<CJK Ideograph>)
 5432	0x665E	晞 (<CJK Ideograph>)
 5433	0x665D	晝 (<CJK Ideograph>)
 5434	0x6664	晤 (<CJK Ideograph>)
 5435	0x6667	晧 (<CJK Ideograph>)
 5436	0x6668	晨 (<CJK Ideograph>)
 5437	0x665F	晟 (<CJK Ideograph>)
 5438	0x6662	晢 (<CJK Ideograph>)
 5439	0x6670	晰 (<CJK Ideograph>)
 5440	0x6683	暃 (<CJK Ideograph>)
 5441	0x6688	暈 (<CJK Ideograph>)
 5442	0x668E	暎 (<CJK Ideograph>)
 5443	0x6689	暉 (<CJK Ideograph>)
 5444	0x6684	暄 (<CJK Ideograph>)
 5445	0x6698	暘 (<CJK Ideograph>)
 5446	0x669D	暝 (<CJK Ideograph>)
 5447	0x66C1	曁 (<CJK Ideograph>)
 5448	0x66B9	暹 (<CJK Ideograph>)
 5449	0x66C9	曉 (<CJK Ideograph>)
 5450	0x66BE	暾 (<CJK Ideograph>)
 5451	0x66BC	暼 (<CJK Ideograph>)
"#

/-- encoding_tables/whatwg/index-jis0208.txt:4613-4800 -/
noncomputable def index29 : List Text := lines! r#" 5452	0x66C4	曄 (<CJK Ideograph>)
 5453	0x66B8	暸 (<CJK Ideograph>)
 5454	0x66D6	曖 (<CJK Ideograph>)
 5455	0x66DA	曚 (<CJK Ideograph>)
 5456	0x66E0	曠 (<CJK Ideograph>)
 5457	0x663F	昿 (<CJK Ideograph>)
 5458	0x66E6	曦 (<CJK Ideograph>)
 5459	0x66E9	曩 (<CJK Ideograph>)
 5460	0x66F0	曰 (<CJK Ideograph>)
 5461	0x66F5	曵 (<CJK Ideograph>)
 5462	0x66F7	曷 (<CJK Ideograph>)
 5463	0x670F	朏 (<CJK Ideograph>)
 5464	0x6716	朖 (<CJK Ideograph>)
 5465	0x671E	朞 (<CJK Ideograph>)
 5466	0x6726	朦 (<CJK Ideograph>)
 5467	0x6727	朧 (<CJK Ideograph>)
 5468	0x9738	霸 (<CJK Ideograph>)
 5469	0x672E	朮 (<CJK Ideograph>)
 5470	0x673F	朿 (<CJK Ideograph>)
 5471	0x6736	朶 (<CJK Ideograph>)
 5472	0x6741	杁 (<CJK Ideograph>)
 5473	0x6738	朸 (<CJK Ideograph>)
 5474	0x6737	朷 (<CJK Ideograph>)
 5475	0x6746	杆 (<CJK Ideograph>)
 5476	0x675E	杞 (<CJK Ideograph>)
 5477	0x6760	杠 (<CJK Ideograph>)
 5478	0x6759	杙 (<CJK Ideograph>)
 5479	0x6763	杣 (<CJK Ideograph>)
 5480	0x6764	杤 (<CJK Ideograph>)
 5481	0x6789	枉 (<CJK Ideograph>)
 5482	0x6770	杰 (<CJK Ideograph>)
 5483	0x67A9	枩 (<CJK Ideograph>)
 5484	0x677C	杼 (<CJK Ideograph>)
 5485	0x676A	杪 (<CJK Ideograph>)
 5486	0x678C	枌 (<CJK Ideograph>)
 5487	0x678B	枋 (<CJK Ideograph>)
 5488	0x67A6	枦 (<CJK Ideograph>)
 5489	0x67A1	枡 (<CJK Ideograph>)
 5490	0x6785	枅 (<CJK Ideograph>)
 5491	0x67B7	枷 (<CJK Ideograph>)
 5492	0x67EF	柯 (<CJK Ideograph>)
 5493	0x67B4	枴 (<CJK Ideograph>)
 5494	0x67EC	柬 (<CJK Ideograph>)
 5495	0x67B3	枳 (<CJK Ideograph>)
 5496	0x67E9	柩 (<CJK Ideograph>)
 5497	0x67B8	枸 (<CJK Ideograph>)
 5498	0x67E4	柤 (<CJK Ideograph>)
 5499	0x67DE	柞 (<CJK Ideograph>)
 5500	0x67DD	柝 (<CJK Ideograph>)
 5501	0x67E2	柢 (<CJK Ideograph>)
 5502	0x67EE	柮 (<CJK Ideograph>)
 5503	0x67B9	枹 (<CJK Ideograph>)
 5504	0x67CE	柎 (<CJK Ideograph>)
 5505	0x67C6	柆 (<CJK Ideograph>)
 5506	0x67E7	柧 (<CJK Ideograph>)
 5507	0x6A9C	檜 (<CJK Ideograph>)
 5508	0x681E	栞 (<CJK Ideograph>)
 5509	0x6846	框 (<CJK Ideograph>)
 5510	0x6829	栩 (<CJK Ideograph>)
 5511	0x6840	桀 (<CJK Ideograph>)
 5512	0x684D	桍 (<CJK Ideograph>)
 5513	0x6832	栲 (<CJK Ideograph>)
 5514	0x684E	桎 (<CJK Ideograph>)
 5515	0x68B3	梳 (<CJK Ideograph>)
 5516	0x682B	栫 (<CJK Ideograph>)
 5517	0x6859	桙 (<CJK Ideograph>)
 5518	0x6863	档 (<CJK Ideograph>)
 5519	0x6877	桷 (<CJK Ideograph>)
 5520	0x687F	桿 (<CJK Ideograph>)
 5521	0x689F	梟 (<CJK Ideograph>)
 5522	0x688F	梏 (<CJK Ideograph>)
 5523	0x68AD	梭 (<CJK Ideograph>)
 5524	0x6894	梔 (<CJK Ideograph>)
 5525	0x689D	條 (<CJK Ideograph>)
 5526	0x689B	梛 (<CJK Ideograph>)
 5527	0x6883	梃 (<CJK Ideograph>)
 5528	0x6AAE	檮 (<CJK Ideograph>)
 5529	0x68B9	梹 (<CJK Ideograph>)
 5530	0x6874	桴 (<CJK Ideograph>)
 5531	0x68B5	梵 (<CJK Ideograph>)
 5532	0x68A0	梠 (<CJK Ideograph>)
 5533	0x68BA	梺 (<CJK Ideograph>)
 5534	0x690F	椏 (<CJK Ideograph>)
 5535	0x688D	梍 (<CJK Ideograph>)
 5536	0x687E	桾 (<CJK Ideograph>)
 5537	0x6901	椁 (<CJK Ideograph>)
 5538	0x68CA	棊 (<CJK Ideograph>)
 5539	0x6908	椈 (<CJK Ideograph>)
 5540	0x68D8	棘 (<CJK Ideograph>)
 5541	0x6922	椢 (<CJK Ideograph>)
 5542	0x6926	椦 (<CJK Ideograph>)
 5543	0x68E1	棡 (<CJK Ideograph>)
 5544	0x690C	椌 (<CJK Ideograph>)
 5545	0x68CD	棍 (<CJK Ideograph>)
 5546	0x68D4	棔 (<CJK Ideograph>)
 5547	0x68E7	棧 (<CJK Ideograph>)
 5548	0x68D5	棕 (<CJK Ideograph>)
 5549	0x6936	椶 (<CJK Ideograph>)
 5550	0x6912	椒 (<CJK Ideograph>)
 5551	0x6904	椄 (<CJK Ideograph>)
 5552	0x68D7	棗 (<CJK Ideograph>)
 5553	0x68E3	棣 (<CJK Ideograph>)
 5554	0x6925	椥 (<CJK Ideograph>)
 5555	0x68F9	棹 (<CJK Ideograph>)
 5556	0x68E0	棠 (<CJK Ideograph>)
 5557	0x68EF	棯 (<CJK Ideograph>)
 5558	0x6928	椨 (<CJK Ideograph>)
 5559	0x692A	椪 (<CJK Ideograph>)
 5560	0x691A	椚 (<CJK Ideograph>)
 5561	0x6923	椣 (<CJK Ideograph>)
 5562	0x6921	椡 (<CJK Ideograph>)
 5563	0x68C6	棆 (<CJK Ideograph>)
 5564	0x6979	楹 (<CJK Ideograph>)
 5565	0x6977	楷 (<CJK Ideograph>)
 5566	0x695C	楜 (<CJK Ideograph>)
 5567	0x6978	楸 (<CJK Ideograph>)
 5568	0x696B	楫 (<CJK Ideograph>)
 5569	0x6954	楔 (<CJK Ideograph>)
 5570	0x697E	楾 (<CJK Ideograph>)
 5571	0x696E	楮 (<CJK Ideograph>)
 5572	0x6939	椹 (<CJK Ideograph>)
 5573	0x6974	楴 (<CJK Ideograph>)
 5574	0x693D	椽 (<CJK Ideograph>)
 5575	0x6959	楙 (<CJK Ideograph>)
 5576	0x6930	椰 (<CJK Ideograph>)
 5577	0x6961	楡 (<CJK Ideograph>)
 5578	0x695E	楞 (<CJK Ideograph>)
 5579	0x695D	楝 (<CJK Ideograph>)
 5580	0x6981	榁 (<CJK Ideograph>)
 5581	0x696A	楪 (<CJK Ideograph>)
 5582	0x69B2	榲 (<CJK Ideograph>)
 5583	0x69AE	榮 (<CJK Ideograph>)
 5584	0x69D0	槐 (<CJK Ideograph>)
 5585	0x69BF	榿 (<CJK Ideograph>)
 5586	0x69C1	槁 (<CJK Ideograph>)
 5587	0x69D3	槓 (<CJK Ideograph>)
 5588	0x69BE	榾 (<CJK Ideograph>)
 5589	0x69CE	槎 (<CJK Ideograph>)
 5590	0x5BE8	寨 (<CJK Ideograph>)
 5591	0x69CA	槊 (<CJK Ideograph>)
 5592	0x69DD	槝 (<CJK Ideograph>)
 5593	0x69BB	榻 (<CJK Ideograph>)
 5594	0x69C3	槃 (<CJK Ideograph>)
 5595	0x69A7	榧 (<CJK Ideograph>)
 5596	0x6A2E	樮 (<CJK Ideograph>)
 5597	0x6991	榑 (<CJK Ideograph>)
 5598	0x69A0	榠 (<CJK Ideograph>)
 5599	0x699C	榜 (<CJK Ideograph>)
 5600	0x6995	榕 (<CJK Ideograph>)
 5601	0x69B4	榴 (<CJK Ideograph>)
 5602	0x69DE	槞 (<CJK Ideograph>)
 5603	0x69E8	槨 (<CJK Ideograph>)
 5604	0x6A02	樂 (<CJK Ideograph>)
 5605	0x6A1B	樛 (<CJK Ideograph>)
 5606	0x69FF	槿 (<CJK Ideograph>)
 5607	0x6B0A	權 (<CJK Ideograph>)
 5608	0x69F9	槹 (<CJK Ideograph>)
 5609	0x69F2	槲 (<CJK Ideograph>)
 5610	0x69E7	槧 (<CJK Ideograph>)
 5611	0x6A05	樅 (<CJK Ideograph>)
 5612	0x69B1	榱 (<CJK Ideograph>)
 5613	0x6A1E	樞 (<CJK Ideograph>)
 5614	0x69ED	槭 (<CJK Ideograph>)
 5615	0x6A14	樔 (<CJK Ideograph>)
 5616	0x69EB	槫 (<CJK Ideograph>)
 5617	0x6A0A	樊 (<CJK Ideograph>)
 5618	0x6A12	樒 (<CJK Ideograph>)
 5619	0x6AC1	櫁 (<CJK Ideograph>)
 5620	0x6A23	樣 (<CJK Ideograph>)
 5621	0x6A13	樓 (<CJK Ideograph>)
 5622	0x6A44	橄 (<CJK Ideograph>)
 5623	0x6A0C	樌 (<CJK Ideograph>)
 5624	0x6A72	橲 (<CJK Ideograph>)
 5625	0x6A36	樶 (<CJK Ideograph>)
 5626	0x6A78	橸 (<CJK Ideograph>)
 5627	0x6A47	橇 (<CJK Ideograph>)
 5628	0x6A62	橢 (<CJK Ideograph>)
 5629	0x6A59	橙 (<CJK Ideograph>)
 5630	0x6A66	橦 (<CJK Ideograph>)
 5631	0x6A48	橈 (<CJK Ideograph>)
 5632	0x6A38	樸 (<CJK Ideograph>)
 5633	0x6A22	樢 (<CJK Ideograph>)
 5634	0x6A90	檐 (<CJK Ideograph>)
 5635	0x6A8D	檍 (<CJK Ideograph>)
 5636	0x6AA0	檠 (<CJK Ideograph>)
 5637	0x6A84	檄 (<CJK Ideograph>)
 5638	0x6AA2	檢 (<CJK Ideograph>)
 5639	0x6AA3	檣 (<CJK Ideograph>)
"#

/-- encoding_tables/whatwg/index-jis0208.txt:4801-4988 -/
noncomputable def index30 : List Text := lines! r#" 5640	0x6A97	檗 (<CJK Ideograph>)
 5641	0x8617	蘗 (<CJK Ideograph>)
 5642	0x6ABB	檻 (<CJK Ideograph>)
 5643	0x6AC3	櫃 (<CJK Ideograph>)
 5644	0x6AC2	櫂 (<CJK Ideograph>)
 5645	0x6AB8	檸 (<CJK Ideograph>)
 5646	0x6AB3	檳 (<CJK Ideograph>)
 5647	0x6AAC	檬 (<CJK Ideograph>)
 5648	0x6ADE	櫞 (<CJK Ideograph>)
 5649	0x6AD1	櫑 (<CJK Ideograph>)
 5650	0x6ADF	櫟 (<CJK Ideograph>)
 5651	0x6AAA	檪 (<CJK Ideograph>)
 5652	0x6ADA	櫚 (<CJK Ideograph>)
 5653	0x6AEA	櫪 (<CJK Ideograph>)
 5654	0x6AFB	櫻 (<CJK Ideograph>)
 5655	0x6B05	欅 (<CJK Ideograph>)
 5656	0x8616	蘖 (<CJK Ideograph>)
 5657	0x6AFA	櫺 (<CJK Ideograph>)
 5658	0x6B12	欒 (<CJK Ideograph>)
 5659	0x6B16	欖 (<CJK Ideograph>)
 5660	0x9B31	鬱 (<CJK Ideograph>)
 5661	0x6B1F	欟 (<CJK Ideograph>)
 5662	0x6B38	欸 (<CJK Ideograph>)
 5663	0x6B37	欷 (<CJK Ideograph>)
 5664	0x76DC	盜 (<CJK Ideograph>)
 5665	0x6B39	欹 (<CJK Ideograph>)
 5666	0x98EE	飮 (<CJK Ideograph>)
 5667	0x6B47	歇 (<CJK Ideograph>)
 5668	0x6B43	歃 (<CJK Ideograph>)
 5669	0x6B49	歉 (<CJK Ideograph>)
 5670	0x6B50	歐 (<CJK Ideograph>)
 5671	0x6B59	歙 (<CJK Ideograph>)
 5672	0x6B54	歔 (<CJK Ideograph>)
 5673	0x6B5B	歛 (<CJK Ideograph>)
 5674	0x6B5F	歟 (<CJK Ideograph>)
 5675	0x6B61	歡 (<CJK Ideograph>)
 5676	0x6B78	歸 (<CJK Ideograph>)
 5677	0x6B79	歹 (<CJK Ideograph>)
 5678	0x6B7F	歿 (<CJK Ideograph>)
 5679	0x6B80	殀 (<CJK Ideograph>)
 5680	0x6B84	殄 (<CJK Ideograph>)
 5681	0x6B83	殃 (<CJK Ideograph>)
 5682	0x6B8D	殍 (<CJK Ideograph>)
 5683	0x6B98	殘 (<CJK Ideograph>)
 5684	0x6B95	殕 (<CJK Ideograph>)
 5685	0x6B9E	殞 (<CJK Ideograph>)
 5686	0x6BA4	殤 (<CJK Ideograph>)
 5687	0x6BAA	殪 (<CJK Ideograph>)
 5688	0x6BAB	殫 (<CJK Ideograph>)
 5689	0x6BAF	殯 (<CJK Ideograph>)
 5690	0x6BB2	殲 (<CJK Ideograph>)
 5691	0x6BB1	殱 (<CJK Ideograph>)
 5692	0x6BB3	殳 (<CJK Ideograph>)
 5693	0x6BB7	殷 (<CJK Ideograph>)
 5694	0x6BBC	殼 (<CJK Ideograph>)
 5695	0x6BC6	毆 (<CJK Ideograph>)
 5696	0x6BCB	毋 (<CJK Ideograph>)
 5697	0x6BD3	毓 (<CJK Ideograph>)
 5698	0x6BDF	毟 (<CJK Ideograph>)
 5699	0x6BEC	毬 (<CJK Ideograph>)
 5700	0x6BEB	毫 (<CJK Ideograph>)
 5701	0x6BF3	毳 (<CJK Ideograph>)
 5702	0x6BEF	毯 (<CJK Ideograph>)
 5703	0x9EBE	麾 (<CJK Ideograph>)
 5704	0x6C08	氈 (<CJK Ideograph>)
 5705	0x6C13	氓 (<CJK Ideograph>)
 5706	0x6C14	气 (<CJK Ideograph>)
 5707	0x6C1B	氛 (<CJK Ideograph>)
 5708	0x6C24	氤 (<CJK Ideograph>)
 5709	0x6C23	氣 (<CJK Ideograph>)
 5710	0x6C5E	汞 (<CJK Ideograph>)
 5711	0x6C55	汕 (<CJK Ideograph>)
 5712	0x6C62	汢 (<CJK Ideograph>)
 5713	0x6C6A	汪 (<CJK Ideograph>)
 5714	0x6C82	沂 (<CJK Ideograph>)
 5715	0x6C8D	沍 (<CJK Ideograph>)
 5716	0x6C9A	沚 (<CJK Ideograph>)
 5717	0x6C81	沁 (<CJK Ideograph>)
 5718	0x6C9B	沛 (<CJK Ideograph>)
 5719	0x6C7E	汾 (<CJK Ideograph>)
 5720	0x6C68	汨 (<CJK Ideograph>)
 5721	0x6C73	汳 (<CJK Ideograph>)
 5722	0x6C92	沒 (<CJK Ideograph>)
 5723	0x6C90	沐 (<CJK Ideograph>)
 5724	0x6CC4	泄 (<CJK Ideograph>)
 5725	0x6CF1	泱 (<CJK Ideograph>)
 5726	0x6CD3	泓 (<CJK Ideograph>)
 5727	0x6CBD	沽 (<CJK Ideograph>)
 5728	0x6CD7	泗 (<CJK Ideograph>)
 5729	0x6CC5	泅 (<CJK Ideograph>)
 5730	0x6CDD	泝 (<CJK Ideograph>)
 5731	0x6CAE	沮 (<CJK Ideograph>)
 5732	0x6CB1	沱 (<CJK Ideograph>)
 5733	0x6CBE	沾 (<CJK Ideograph>)
 5734	0x6CBA	沺 (<CJK Ideograph>)
 5735	0x6CDB	泛 (<CJK Ideograph>)
 5736	0x6CEF	泯 (<CJK Ideograph>)
 5737	0x6CD9	泙 (<CJK Ideograph>)
 5738	0x6CEA	泪 (<CJK Ideograph>)
 5739	0x6D1F	洟 (<CJK Ideograph>)
 5740	0x884D	衍 (<CJK Ideograph>)
 5741	0x6D36	洶 (<CJK Ideograph>)
 5742	0x6D2B	洫 (<CJK Ideograph>)
 5743	0x6D3D	洽 (<CJK Ideograph>)
 5744	0x6D38	洸 (<CJK Ideograph>)
 5745	0x6D19	洙 (<CJK Ideograph>)
 5746	0x6D35	洵 (<CJK Ideograph>)
 5747	0x6D33	洳 (<CJK Ideograph>)
 5748	0x6D12	洒 (<CJK Ideograph>)
 5749	0x6D0C	洌 (<CJK Ideograph>)
 5750	0x6D63	浣 (<CJK Ideograph>)
 5751	0x6D93	涓 (<CJK Ideograph>)
 5752	0x6D64	浤 (<CJK Ideograph>)
 5753	0x6D5A	浚 (<CJK Ideograph>)
 5754	0x6D79	浹 (<CJK Ideograph>)
 5755	0x6D59	浙 (<CJK Ideograph>)
 5756	0x6D8E	涎 (<CJK Ideograph>)
 5757	0x6D95	涕 (<CJK Ideograph>)
 5758	0x6FE4	濤 (<CJK Ideograph>)
 5759	0x6D85	涅 (<CJK Ideograph>)
 5760	0x6DF9	淹 (<CJK Ideograph>)
 5761	0x6E15	渕 (<CJK Ideograph>)
 5762	0x6E0A	渊 (<CJK Ideograph>)
 5763	0x6DB5	涵 (<CJK Ideograph>)
 5764	0x6DC7	淇 (<CJK Ideograph>)
 5765	0x6DE6	淦 (<CJK Ideograph>)
 5766	0x6DB8	涸 (<CJK Ideograph>)
 5767	0x6DC6	淆 (<CJK Ideograph>)
 5768	0x6DEC	淬 (<CJK Ideograph>)
 5769	0x6DDE	淞 (<CJK Ideograph>)
 5770	0x6DCC	淌 (<CJK Ideograph>)
 5771	0x6DE8	淨 (<CJK Ideograph>)
 5772	0x6DD2	淒 (<CJK Ideograph>)
 5773	0x6DC5	淅 (<CJK Ideograph>)
 5774	0x6DFA	淺 (<CJK Ideograph>)
 5775	0x6DD9	淙 (<CJK Ideograph>)
 5776	0x6DE4	淤 (<CJK Ideograph>)
 5777	0x6DD5	淕 (<CJK Ideograph>)
 5778	0x6DEA	淪 (<CJK Ideograph>)
 5779	0x6DEE	淮 (<CJK Ideograph>)
 5780	0x6E2D	渭 (<CJK Ideograph>)
 5781	0x6E6E	湮 (<CJK Ideograph>)
 5782	0x6E2E	渮 (<CJK Ideograph>)
 5783	0x6E19	渙 (<CJK Ideograph>)
 5784	0x6E72	湲 (<CJK Ideograph>)
 5785	0x6E5F	湟 (<CJK Ideograph>)
 5786	0x6E3E	渾 (<CJK Ideograph>)
 5787	0x6E23	渣 (<CJK Ideograph>)
 5788	0x6E6B	湫 (<CJK Ideograph>)
 5789	0x6E2B	渫 (<CJK Ideograph>)
 5790	0x6E76	湶 (<CJK Ideograph>)
 5791	0x6E4D	湍 (<CJK Ideograph>)
 5792	0x6E1F	渟 (<CJK Ideograph>)
 5793	0x6E43	湃 (<CJK Ideograph>)
 5794	0x6E3A	渺 (<CJK Ideograph>)
 5795	0x6E4E	湎 (<CJK Ideograph>)
 5796	0x6E24	渤 (<CJK Ideograph>)
 5797	0x6EFF	滿 (<CJK Ideograph>)
 5798	0x6E1D	渝 (<CJK Ideograph>)
 5799	0x6E38	游 (<CJK Ideograph>)
 5800	0x6E82	溂 (<CJK Ideograph>)
 5801	0x6EAA	溪 (<CJK Ideograph>)
 5802	0x6E98	溘 (<CJK Ideograph>)
 5803	0x6EC9	滉 (<CJK Ideograph>)
 5804	0x6EB7	溷 (<CJK Ideograph>)
 5805	0x6ED3	滓 (<CJK Ideograph>)
 5806	0x6EBD	溽 (<CJK Ideograph>)
 5807	0x6EAF	溯 (<CJK Ideograph>)
 5808	0x6EC4	滄 (<CJK Ideograph>)
 5809	0x6EB2	溲 (<CJK Ideograph>)
 5810	0x6ED4	滔 (<CJK Ideograph>)
 5811	0x6ED5	滕 (<CJK Ideograph>)
 5812	0x6E8F	溏 (<CJK Ideograph>)
 5813	0x6EA5	溥 (<CJK Ideograph>)
 5814	0x6EC2	滂 (<CJK Ideograph>)
 5815	0x6E9F	溟 (<CJK Ideograph>)
 5816	0x6F41	潁 (<CJK Ideograph>)
 5817	0x6F11	漑 (<CJK Ideograph>)
 5818	0x704C	灌 (<CJK Ideograph>)
 5819	0x6EEC	滬 (<CJK Ideograph>)
 5820	0x6EF8	滸 (<CJK Ideograph>)
 5821	0x6EFE	滾 (<CJK Ideograph>)
 5822	0x6F3F	漿 (<CJK Ideograph>)
 5823	0x6EF2	滲 (<CJK Ideograph>)
 5824	0x6F31	漱 (<CJK Ideograph>)
 5825	0x6EEF	滯 (<CJK Ideograph>)
 5826	0x6F32	漲 (<CJK Ideograph>)
 5827	0x6ECC	滌 (<CJK Ideograph>)
"#

/-- encoding_tables/whatwg/index-jis0208.txt:4989-5176 -/
noncomputable def index31 : List Text := lines! r#" 5828	0x6F3E	漾 (<CJK Ideograph>)
 5829	0x6F13	漓 (<CJK Ideograph>)
 5830	0x6EF7	滷 (<CJK Ideograph>)
 5831	0x6F86	澆 (<CJK Ideograph>)
 5832	0x6F7A	潺 (<CJK Ideograph>)
 5833	0x6F78	潸 (<CJK Ideograph>)
 5834	0x6F81	澁 (<CJK Ideograph>)
 5835	0x6F80	澀 (<CJK Ideograph>)
 5836	0x6F6F	潯 (<CJK Ideograph>)
 5837	0x6F5B	潛 (<CJK Ideograph>)
 5838	0x6FF3	濳 (<CJK Ideograph>)
 5839	0x6F6D	潭 (<CJK Ideograph>)
 5840	0x6F82	澂 (<CJK Ideograph>)
 5841	0x6F7C	潼 (<CJK Ideograph>)
 5842	0x6F58	潘 (<CJK Ideograph>)
 5843	0x6F8E	澎 (<CJK Ideograph>)
 5844	0x6F91	澑 (<CJK Ideograph>)
 5845	0x6FC2	濂 (<CJK Ideograph>)
 5846	0x6F66	潦 (<CJK Ideograph>)
 5847	0x6FB3	澳 (<CJK Ideograph>)
 5848	0x6FA3	澣 (<CJK Ideograph>)
 5849	0x6FA1	澡 (<CJK Ideograph>)
 5850	0x6FA4	澤 (<CJK Ideograph>)
 5851	0x6FB9	澹 (<CJK Ideograph>)
 5852	0x6FC6	濆 (<CJK Ideograph>)
 5853	0x6FAA	澪 (<CJK Ideograph>)
 5854	0x6FDF	濟 (<CJK Ideograph>)
 5855	0x6FD5	濕 (<CJK Ideograph>)
 5856	0x6FEC	濬 (<CJK Ideograph>)
 5857	0x6FD4	濔 (<CJK Ideograph>)
 5858	0x6FD8	濘 (<CJK Ideograph>)
 5859	0x6FF1	濱 (<CJK Ideograph>)
 5860	0x6FEE	濮 (<CJK Ideograph>)
 5861	0x6FDB	濛 (<CJK Ideograph>)
 5862	0x7009	瀉 (<CJK Ideograph>)
 5863	0x700B	瀋 (<CJK Ideograph>)
 5864	0x6FFA	濺 (<CJK Ideograph>)
 5865	0x7011	瀑 (<CJK Ideograph>)
 5866	0x7001	瀁 (<CJK Ideograph>)
 5867	0x700F	瀏 (<CJK Ideograph>)
 5868	0x6FFE	濾 (<CJK Ideograph>)
 5869	0x701B	瀛 (<CJK Ideograph>)
 5870	0x701A	瀚 (<CJK Ideograph>)
 5871	0x6F74	潴 (<CJK Ideograph>)
 5872	0x701D	瀝 (<CJK Ideograph>)
 5873	0x7018	瀘 (<CJK Ideograph>)
 5874	0x701F	瀟 (<CJK Ideograph>)
 5875	0x7030	瀰 (<CJK Ideograph>)
 5876	0x703E	瀾 (<CJK Ideograph>)
 5877	0x7032	瀲 (<CJK Ideograph>)
 5878	0x7051	灑 (<CJK Ideograph>)
 5879	0x7063	灣 (<CJK Ideograph>)
 5880	0x7099	炙 (<CJK Ideograph>)
 5881	0x7092	炒 (<CJK Ideograph>)
 5882	0x70AF	炯 (<CJK Ideograph>)
 5883	0x70F1	烱 (<CJK Ideograph>)
 5884	0x70AC	炬 (<CJK Ideograph>)
 5885	0x70B8	炸 (<CJK Ideograph>)
 5886	0x70B3	炳 (<CJK Ideograph>)
 5887	0x70AE	炮 (<CJK Ideograph>)
 5888	0x70DF	烟 (<CJK Ideograph>)
 5889	0x70CB	烋 (<CJK Ideograph>)
 5890	0x70DD	烝 (<CJK Ideograph>)
 5891	0x70D9	烙 (<CJK Ideograph>)
 5892	0x7109	焉 (<CJK Ideograph>)
 5893	0x70FD	烽 (<CJK Ideograph>)
 5894	0x711C	焜 (<CJK Ideograph>)
 5895	0x7119	焙 (<CJK Ideograph>)
 5896	0x7165	煥 (<CJK Ideograph>)
 5897	0x7155	煕 (<CJK Ideograph>)
 5898	0x7188	熈 (<CJK Ideograph>)
 5899	0x7166	煦 (<CJK Ideograph>)
 5900	0x7162	煢 (<CJK Ideograph>)
 5901	0x714C	煌 (<CJK Ideograph>)
 5902	0x7156	煖 (<CJK Ideograph>)
 5903	0x716C	煬 (<CJK Ideograph>)
 5904	0x718F	熏 (<CJK Ideograph>)
 5905	0x71FB	燻 (<CJK Ideograph>)
 5906	0x7184	熄 (<CJK Ideograph>)
 5907	0x7195	熕 (<CJK Ideograph>)
 5908	0x71A8	熨 (<CJK Ideograph>)
 5909	0x71AC	熬 (<CJK Ideograph>)
 5910	0x71D7	燗 (<CJK Ideograph>)
 5911	0x71B9	熹 (<CJK Ideograph>)
 5912	0x71BE	熾 (<CJK Ideograph>)
 5913	0x71D2	燒 (<CJK Ideograph>)
 5914	0x71C9	燉 (<CJK Ideograph>)
 5915	0x71D4	燔 (<CJK Ideograph>)
 5916	0x71CE	燎 (<CJK Ideograph>)
 5917	0x71E0	燠 (<CJK Ideograph>)
 5918	0x71EC	燬 (<CJK Ideograph>)
 5919	0x71E7	燧 (<CJK Ideograph>)
 5920	0x71F5	燵 (<CJK Ideograph>)
 5921	0x71FC	燼 (<CJK Ideograph>)
 5922	0x71F9	燹 (<CJK Ideograph>)
 5923	0x71FF	燿 (<CJK Ideograph>)
 5924	0x720D	爍 (<CJK Ideograph>)
 5925	0x7210	爐 (<CJK Ideograph>)
 5926	0x721B	爛 (<CJK Ideograph>)
 5927	0x7228	爨 (<CJK Ideograph>)
 5928	0x722D	爭 (<CJK Ideograph>)
 5929	0x722C	爬 (<CJK Ideograph>)
 5930	0x7230	爰 (<CJK Ideograph>)
 5931	0x7232	爲 (<CJK Ideograph>)
 5932	0x723B	爻 (<CJK Ideograph>)
 5933	0x723C	爼 (<CJK Ideograph>)
 5934	0x723F	爿 (<CJK Ideograph>)
 5935	0x7240	牀 (<CJK Ideograph>)
 5936	0x7246	牆 (<CJK Ideograph>)
 5937	0x724B	牋 (<CJK Ideograph>)
 5938	0x7258	牘 (<CJK Ideograph>)
 5939	0x7274	牴 (<CJK Ideograph>)
 5940	0x727E	牾 (<CJK Ideograph>)
 5941	0x7282	犂 (<CJK Ideograph>)
 5942	0x7281	犁 (<CJK Ideograph>)
 5943	0x7287	犇 (<CJK Ideograph>)
 5944	0x7292	犒 (<CJK Ideograph>)
 5945	0x7296	犖 (<CJK Ideograph>)
 5946	0x72A2	犢 (<CJK Ideograph>)
 5947	0x72A7	犧 (<CJK Ideograph>)
 5948	0x72B9	犹 (<CJK Ideograph>)
 5949	0x72B2	犲 (<CJK Ideograph>)
 5950	0x72C3	狃 (<CJK Ideograph>)
 5951	0x72C6	狆 (<CJK Ideograph>)
 5952	0x72C4	狄 (<CJK Ideograph>)
 5953	0x72CE	狎 (<CJK Ideograph>)
 5954	0x72D2	狒 (<CJK Ideograph>)
 5955	0x72E2	狢 (<CJK Ideograph>)
 5956	0x72E0	狠 (<CJK Ideograph>)
 5957	0x72E1	狡 (<CJK Ideograph>)
 5958	0x72F9	狹 (<CJK Ideograph>)
 5959	0x72F7	狷 (<CJK Ideograph>)
 5960	0x500F	倏 (<CJK Ideograph>)
 5961	0x7317	猗 (<CJK Ideograph>)
 5962	0x730A	猊 (<CJK Ideograph>)
 5963	0x731C	猜 (<CJK Ideograph>)
 5964	0x7316	猖 (<CJK Ideograph>)
 5965	0x731D	猝 (<CJK Ideograph>)
 5966	0x7334	猴 (<CJK Ideograph>)
 5967	0x732F	猯 (<CJK Ideograph>)
 5968	0x7329	猩 (<CJK Ideograph>)
 5969	0x7325	猥 (<CJK Ideograph>)
 5970	0x733E	猾 (<CJK Ideograph>)
 5971	0x734E	獎 (<CJK Ideograph>)
 5972	0x734F	獏 (<CJK Ideograph>)
 5973	0x9ED8	默 (<CJK Ideograph>)
 5974	0x7357	獗 (<CJK Ideograph>)
 5975	0x736A	獪 (<CJK Ideograph>)
 5976	0x7368	獨 (<CJK Ideograph>)
 5977	0x7370	獰 (<CJK Ideograph>)
 5978	0x7378	獸 (<CJK Ideograph>)
 5979	0x7375	獵 (<CJK Ideograph>)
 5980	0x737B	獻 (<CJK Ideograph>)
 5981	0x737A	獺 (<CJK Ideograph>)
 5982	0x73C8	珈 (<CJK Ideograph>)
 5983	0x73B3	玳 (<CJK Ideograph>)
 5984	0x73CE	珎 (<CJK Ideograph>)
 5985	0x73BB	玻 (<CJK Ideograph>)
 5986	0x73C0	珀 (<CJK Ideograph>)
 5987	0x73E5	珥 (<CJK Ideograph>)
 5988	0x73EE	珮 (<CJK Ideograph>)
 5989	0x73DE	珞 (<CJK Ideograph>)
 5990	0x74A2	璢 (<CJK Ideograph>)
 5991	0x7405	琅 (<CJK Ideograph>)
 5992	0x746F	瑯 (<CJK Ideograph>)
 5993	0x7425	琥 (<CJK Ideograph>)
 5994	0x73F8	珸 (<CJK Ideograph>)
 5995	0x7432	琲 (<CJK Ideograph>)
 5996	0x743A	琺 (<CJK Ideograph>)
 5997	0x7455	瑕 (<CJK Ideograph>)
 5998	0x743F	琿 (<CJK Ideograph>)
 5999	0x745F	瑟 (<CJK Ideograph>)
 6000	0x7459	瑙 (<CJK Ideograph>)
 6001	0x7441	瑁 (<CJK Ideograph>)
 6002	0x745C	瑜 (<CJK Ideograph>)
 6003	0x7469	瑩 (<CJK Ideograph>)
 6004	0x7470	瑰 (<CJK Ideograph>)
 6005	0x7463	瑣 (<CJK Ideograph>)
 6006	0x746A	瑪 (<CJK Ideograph>)
 6007	0x7476	瑶 (<CJK Ideograph>)
 6008	0x747E	瑾 (<CJK Ideograph>)
 6009	0x748B	璋 (<CJK Ideograph>)
 6010	0x749E	璞 (<CJK Ideograph>)
 6011	0x74A7	璧 (<CJK Ideograph>)
 6012	0x74CA	瓊 (<CJK Ideograph>)
 6013	0x74CF	瓏 (<CJK Ideograph>)
 6014	0x74D4	瓔 (<CJK Ideograph>)
 6015	0x73F1	珱 (<CJK Ideograph>)
"#

/-- encoding_tables/whatwg/index-jis0208.txt:5177-5364 -/
noncomputable def index32 : List Text := lines! r#" 6016	0x74E0	瓠 (<CJK Ideograph>)
 6017	0x74E3	瓣 (<CJK Ideograph>)
 6018	0x74E7	瓧 (<CJK Ideograph>)
 6019	0x74E9	瓩 (<CJK Ideograph>)
 6020	0x74EE	瓮 (<CJK Ideograph>)
 6021	0x74F2	瓲 (<CJK Ideograph>)
 6022	0x74F0	瓰 (<CJK Ideograph>)
 6023	0x74F1	瓱 (<CJK Ideograph>)
 6024	0x74F8	瓸 (<CJK Ideograph>)
 6025	0x74F7	瓷 (<CJK Ideograph>)
 6026	0x7504	甄 (<CJK Ideograph>)
 6027	0x7503	甃 (<CJK Ideograph>)
 6028	0x7505	甅 (<CJK Ideograph>)
 6029	0x750C	甌 (<CJK Ideograph>)
 6030	0x750E	甎 (<CJK Ideograph>)
 6031	0x750D	甍 (<CJK Ideograph>)
 6032	0x7515	甕 (<CJK Ideograph>)
 6033	0x7513	甓 (<CJK Ideograph>)
 6034	0x751E	甞 (<CJK Ideograph>)
 6035	0x7526	甦 (<CJK Ideograph>)
 6036	0x752C	甬 (<CJK Ideograph>)
 6037	0x753C	甼 (<CJK Ideograph>)
 6038	0x7544	畄 (<CJK Ideograph>)
 6039	0x754D	畍 (<CJK Ideograph>)
 6040	0x754A	畊 (<CJK Ideograph>)
 6041	0x7549	畉 (<CJK Ideograph>)
 6042	0x755B	畛 (<CJK Ideograph>)
 6043	0x7546	畆 (<CJK Ideograph>)
 6044	0x755A	畚 (<CJK Ideograph>)
 6045	0x7569	畩 (<CJK Ideograph>)
 6046	0x7564	畤 (<CJK Ideograph>)
 6047	0x7567	畧 (<CJK Ideograph>)
 6048	0x756B	畫 (<CJK Ideograph>)
 6049	0x756D	畭 (<CJK Ideograph>)
 6050	0x7578	畸 (<CJK Ideograph>)
 6051	0x7576	當 (<CJK Ideograph>)
 6052	0x7586	疆 (<CJK Ideograph>)
 6053	0x7587	疇 (<CJK Ideograph>)
 6054	0x7574	畴 (<CJK Ideograph>)
 6055	0x758A	疊 (<CJK Ideograph>)
 6056	0x7589	疉 (<CJK Ideograph>)
 6057	0x7582	疂 (<CJK Ideograph>)
 6058	0x7594	疔 (<CJK Ideograph>)
 6059	0x759A	疚 (<CJK Ideograph>)
 6060	0x759D	疝 (<CJK Ideograph>)
 6061	0x75A5	疥 (<CJK Ideograph>)
 6062	0x75A3	疣 (<CJK Ideograph>)
 6063	0x75C2	痂 (<CJK Ideograph>)
 6064	0x75B3	疳 (<CJK Ideograph>)
 6065	0x75C3	痃 (<CJK Ideograph>)
 6066	0x75B5	疵 (<CJK Ideograph>)
 6067	0x75BD	疽 (<CJK Ideograph>)
 6068	0x75B8	疸 (<CJK Ideograph>)
 6069	0x75BC	疼 (<CJK Ideograph>)
 6070	0x75B1	疱 (<CJK Ideograph>)
 6071	0x75CD	痍 (<CJK Ideograph>)
 6072	0x75CA	痊 (<CJK Ideograph>)
 6073	0x75D2	痒 (<CJK Ideograph>)
 6074	0x75D9	痙 (<CJK Ideograph>)
 6075	0x75E3	痣 (<CJK Ideograph>)
 6076	0x75DE	痞 (<CJK Ideograph>)
 6077	0x75FE	痾 (<CJK Ideograph>)
 6078	0x75FF	痿 (<CJK Ideograph>)
 6079	0x75FC	痼 (<CJK Ideograph>)
 6080	0x7601	瘁 (<CJK Ideograph>)
 6081	0x75F0	痰 (<CJK Ideograph>)
 6082	0x75FA	痺 (<CJK Ideograph>)
 6083	0x75F2	痲 (<CJK Ideograph>)
 6084	0x75F3	痳 (<CJK Ideograph>)
 6085	0x760B	瘋 (<CJK Ideograph>)
 6086	0x760D	瘍 (<CJK Ideograph>)
 6087	0x7609	瘉 (<CJK Ideograph>)
 6088	0x761F	瘟 (<CJK Ideograph>)
 6089	0x7627	瘧 (<CJK Ideograph>)
 6090	0x7620	瘠 (<CJK Ideograph>)
 6091	0x7621	瘡 (<CJK Ideograph>)
 6092	0x7622	瘢 (<CJK Ideograph>)
 6093	0x7624	瘤 (<CJK Ideograph>)
 6094	0x7634	瘴 (<CJK Ideograph>)
 6095	0x7630	瘰 (<CJK Ideograph>)
 6096	0x763B	瘻 (<CJK Ideograph>)
 6097	0x7647	癇 (<CJK Ideograph>)
 6098	0x7648	癈 (<CJK Ideograph>)
 6099	0x7646	癆 (<CJK Ideograph>)
 6100	0x765C	癜 (<CJK Ideograph>)
 6101	0x7658	癘 (<CJK Ideograph>)
 6102	0x7661	癡 (<CJK Ideograph>)
 6103	0x7662	癢 (<CJK Ideograph>)
 6104	0x7668	癨 (<CJK Ideograph>)
 6105	0x7669	癩 (<CJK Ideograph>)
 6106	0x766A	癪 (<CJK Ideograph>)
 6107	0x7667	癧 (<CJK Ideograph>)
 6108	0x766C	癬 (<CJK Ideograph>)
 6109	0x7670	癰 (<CJK Ideograph>)
 6110	0x7672	癲 (<CJK Ideograph>)
 6111	0x7676	癶 (<CJK Ideograph>)
 6112	0x7678	癸 (<CJK Ideograph>)
 6113	0x767C	發 (<CJK Ideograph>)
 6114	0x7680	皀 (<CJK Ideograph>)
 6115	0x7683	皃 (<CJK Ideograph>)
 6116	0x7688	皈 (<CJK Ideograph>)
 6117	0x768B	皋 (<CJK Ideograph>)
 6118	0x768E	皎 (<CJK Ideograph>)
 6119	0x7696	皖 (<CJK Ideograph>)
 6120	0x7693	皓 (<CJK Ideograph>)
 6121	0x7699	皙 (<CJK Ideograph>)
 6122	0x769A	皚 (<CJK Ideograph>)
 6123	0x76B0	皰 (<CJK Ideograph>)
 6124	0x76B4	皴 (<CJK Ideograph>)
 6125	0x76B8	皸 (<CJK Ideograph>)
 6126	0x76B9	皹 (<CJK Ideograph>)
 6127	0x76BA	皺 (<CJK Ideograph>)
 6128	0x76C2	盂 (<CJK Ideograph>)
 6129	0x76CD	盍 (<CJK Ideograph>)
 6130	0x76D6	盖 (<CJK Ideograph>)
 6131	0x76D2	盒 (<CJK Ideograph>)
 6132	0x76DE	盞 (<CJK Ideograph>)
 6133	0x76E1	盡 (<CJK Ideograph>)
 6134	0x76E5	盥 (<CJK Ideograph>)
 6135	0x76E7	盧 (<CJK Ideograph>)
 6136	0x76EA	盪 (<CJK Ideograph>)
 6137	0x862F	蘯 (<CJK Ideograph>)
 6138	0x76FB	盻 (<CJK Ideograph>)
 6139	0x7708	眈 (<CJK Ideograph>)
 6140	0x7707	眇 (<CJK Ideograph>)
 6141	0x7704	眄 (<CJK Ideograph>)
 6142	0x7729	眩 (<CJK Ideograph>)
 6143	0x7724	眤 (<CJK Ideograph>)
 6144	0x771E	眞 (<CJK Ideograph>)
 6145	0x7725	眥 (<CJK Ideograph>)
 6146	0x7726	眦 (<CJK Ideograph>)
 6147	0x771B	眛 (<CJK Ideograph>)
 6148	0x7737	眷 (<CJK Ideograph>)
 6149	0x7738	眸 (<CJK Ideograph>)
 6150	0x7747	睇 (<CJK Ideograph>)
 6151	0x775A	睚 (<CJK Ideograph>)
 6152	0x7768	睨 (<CJK Ideograph>)
 6153	0x776B	睫 (<CJK Ideograph>)
 6154	0x775B	睛 (<CJK Ideograph>)
 6155	0x7765	睥 (<CJK Ideograph>)
 6156	0x777F	睿 (<CJK Ideograph>)
 6157	0x777E	睾 (<CJK Ideograph>)
 6158	0x7779	睹 (<CJK Ideograph>)
 6159	0x778E	瞎 (<CJK Ideograph>)
 6160	0x778B	瞋 (<CJK Ideograph>)
 6161	0x7791	瞑 (<CJK Ideograph>)
 6162	0x77A0	瞠 (<CJK Ideograph>)
 6163	0x779E	瞞 (<CJK Ideograph>)
 6164	0x77B0	瞰 (<CJK Ideograph>)
 6165	0x77B6	瞶 (<CJK Ideograph>)
 6166	0x77B9	瞹 (<CJK Ideograph>)
 6167	0x77BF	瞿 (<CJK Ideograph>)
 6168	0x77BC	瞼 (<CJK Ideograph>)
 6169	0x77BD	瞽 (<CJK Ideograph>)
 6170	0x77BB	瞻 (<CJK Ideograph>)
 6171	0x77C7	矇 (<CJK Ideograph>)
 6172	0x77CD	矍 (<CJK Ideograph>)
 6173	0x77D7	矗 (<CJK Ideograph>)
 6174	0x77DA	矚 (<CJK Ideograph>)
 6175	0x77DC	矜 (<CJK Ideograph>)
 6176	0x77E3	矣 (<CJK Ideograph>)
 6177	0x77EE	矮 (<CJK Ideograph>)
 6178	0x77FC	矼 (<CJK Ideograph>)
 6179	0x780C	砌 (<CJK Ideograph>)
 6180	0x7812	砒 (<CJK Ideograph>)
 6181	0x7926	礦 (<CJK Ideograph>)
 6182	0x7820	砠 (<CJK Ideograph>)
 6183	0x792A	礪 (<CJK Ideograph>)
 6184	0x7845	硅 (<CJK Ideograph>)
 6185	0x788E	碎 (<CJK Ideograph>)
 6186	0x7874	硴 (<CJK Ideograph>)
 6187	0x7886	碆 (<CJK Ideograph>)
 6188	0x787C	硼 (<CJK Ideograph>)
 6189	0x789A	碚 (<CJK Ideograph>)
 6190	0x788C	碌 (<CJK Ideograph>)
 6191	0x78A3	碣 (<CJK Ideograph>)
 6192	0x78B5	碵 (<CJK Ideograph>)
 6193	0x78AA	碪 (<CJK Ideograph>)
 6194	0x78AF	碯 (<CJK Ideograph>)
 6195	0x78D1	磑 (<CJK Ideograph>)
 6196	0x78C6	磆 (<CJK Ideograph>)
 6197	0x78CB	磋 (<CJK Ideograph>)
 6198	0x78D4	磔 (<CJK Ideograph>)
 6199	0x78BE	碾 (<CJK Ideograph>)
 6200	0x78BC	碼 (<CJK Ideograph>)
 6201	0x78C5	磅 (<CJK Ideograph>)
 6202	0x78CA	磊 (<CJK Ideograph>)
 6203	0x78EC	磬 (<CJK Ideograph>)
"#

/-- encoding_tables/whatwg/index-jis0208.txt:5365-5552 -/
noncomputable def index33 : List Text := lines! r#" 6204	0x78E7	磧 (<CJK Ideograph>)
 6205	0x78DA	磚 (<CJK Ideograph>)
 6206	0x78FD	磽 (<CJK Ideograph>)
 6207	0x78F4	磴 (<CJK Ideograph>)
 6208	0x7907	礇 (<CJK Ideograph>)
 6209	0x7912	礒 (<CJK Ideograph>)
 6210	0x7911	礑 (<CJK Ideograph>)
 6211	0x7919	礙 (<CJK Ideograph>)
 6212	0x792C	礬 (<CJK Ideograph>)
 6213	0x792B	礫 (<CJK Ideograph>)
 6214	0x7940	祀 (<CJK Ideograph>)
 6215	0x7960	祠 (<CJK Ideograph>)
 6216	0x7957	祗 (<CJK Ideograph>)
 6217	0x795F	祟 (<CJK Ideograph>)
 6218	0x795A	祚 (<CJK Ideograph>)
 6219	0x7955	祕 (<CJK Ideograph>)
 6220	0x7953	祓 (<CJK Ideograph>)
 6221	0x797A	祺 (<CJK Ideograph>)
 6222	0x797F	祿 (<CJK Ideograph>)
 6223	0x798A	禊 (<CJK Ideograph>)
 6224	0x799D	禝 (<CJK Ideograph>)
 6225	0x79A7	禧 (<CJK Ideograph>)
 6226	0x9F4B	齋 (<CJK Ideograph>)
 6227	0x79AA	禪 (<CJK Ideograph>)
 6228	0x79AE	禮 (<CJK Ideograph>)
 6229	0x79B3	禳 (<CJK Ideograph>)
 6230	0x79B9	禹 (<CJK Ideograph>)
 6231	0x79BA	禺 (<CJK Ideograph>)
 6232	0x79C9	秉 (<CJK Ideograph>)
 6233	0x79D5	秕 (<CJK Ideograph>)
 6234	0x79E7	秧 (<CJK Ideograph>)
 6235	0x79EC	秬 (<CJK Ideograph>)
 6236	0x79E1	秡 (<CJK Ideograph>)
 6237	0x79E3	秣 (<CJK Ideograph>)
 6238	0x7A08	稈 (<CJK Ideograph>)
 6239	0x7A0D	稍 (<CJK Ideograph>)
 6240	0x7A18	稘 (<CJK Ideograph>)
 6241	0x7A19	稙 (<CJK Ideograph>)
 6242	0x7A20	稠 (<CJK Ideograph>)
 6243	0x7A1F	稟 (<CJK Ideograph>)
 6244	0x7980	禀 (<CJK Ideograph>)
 6245	0x7A31	稱 (<CJK Ideograph>)
 6246	0x7A3B	稻 (<CJK Ideograph>)
 6247	0x7A3E	稾 (<CJK Ideograph>)
 6248	0x7A37	稷 (<CJK Ideograph>)
 6249	0x7A43	穃 (<CJK Ideograph>)
 6250	0x7A57	穗 (<CJK Ideograph>)
 6251	0x7A49	穉 (<CJK Ideograph>)
 6252	0x7A61	穡 (<CJK Ideograph>)
 6253	0x7A62	穢 (<CJK Ideograph>)
 6254	0x7A69	穩 (<CJK Ideograph>)
 6255	0x9F9D	龝 (<CJK Ideograph>)
 6256	0x7A70	穰 (<CJK Ideograph>)
 6257	0x7A79	穹 (<CJK Ideograph>)
 6258	0x7A7D	穽 (<CJK Ideograph>)
 6259	0x7A88	窈 (<CJK Ideograph>)
 6260	0x7A97	窗 (<CJK Ideograph>)
 6261	0x7A95	窕 (<CJK Ideograph>)
 6262	0x7A98	窘 (<CJK Ideograph>)
 6263	0x7A96	窖 (<CJK Ideograph>)
 6264	0x7AA9	窩 (<CJK Ideograph>)
 6265	0x7AC8	竈 (<CJK Ideograph>)
 6266	0x7AB0	窰 (<CJK Ideograph>)
 6267	0x7AB6	窶 (<CJK Ideograph>)
 6268	0x7AC5	竅 (<CJK Ideograph>)
 6269	0x7AC4	竄 (<CJK Ideograph>)
 6270	0x7ABF	窿 (<CJK Ideograph>)
 6271	0x9083	邃 (<CJK Ideograph>)
 6272	0x7AC7	竇 (<CJK Ideograph>)
 6273	0x7ACA	竊 (<CJK Ideograph>)
 6274	0x7ACD	竍 (<CJK Ideograph>)
 6275	0x7ACF	竏 (<CJK Ideograph>)
 6276	0x7AD5	竕 (<CJK Ideograph>)
 6277	0x7AD3	竓 (<CJK Ideograph>)
 6278	0x7AD9	站 (<CJK Ideograph>)
 6279	0x7ADA	竚 (<CJK Ideograph>)
 6280	0x7ADD	竝 (<CJK Ideograph>)
 6281	0x7AE1	竡 (<CJK Ideograph>)
 6282	0x7AE2	竢 (<CJK Ideograph>)
 6283	0x7AE6	竦 (<CJK Ideograph>)
 6284	0x7AED	竭 (<CJK Ideograph>)
 6285	0x7AF0	竰 (<CJK Ideograph>)
 6286	0x7B02	笂 (<CJK Ideograph>)
 6287	0x7B0F	笏 (<CJK Ideograph>)
 6288	0x7B0A	笊 (<CJK Ideograph>)
 6289	0x7B06	笆 (<CJK Ideograph>)
 6290	0x7B33	笳 (<CJK Ideograph>)
 6291	0x7B18	笘 (<CJK Ideograph>)
 6292	0x7B19	笙 (<CJK Ideograph>)
 6293	0x7B1E	笞 (<CJK Ideograph>)
 6294	0x7B35	笵 (<CJK Ideograph>)
 6295	0x7B28	笨 (<CJK Ideograph>)
 6296	0x7B36	笶 (<CJK Ideograph>)
 6297	0x7B50	筐 (<CJK Ideograph>)
 6298	0x7B7A	筺 (<CJK Ideograph>)
 6299	0x7B04	笄 (<CJK Ideograph>)
 6300	0x7B4D	筍 (<CJK Ideograph>)
 6301	0x7B0B	笋 (<CJK Ideograph>)
 6302	0x7B4C	筌 (<CJK Ideograph>)
 6303	0x7B45	筅 (<CJK Ideograph>)
 6304	0x7B75	筵 (<CJK Ideograph>)
 6305	0x7B65	筥 (<CJK Ideograph>)
 6306	0x7B74	筴 (<CJK Ideograph>)
 6307	0x7B67	筧 (<CJK Ideograph>)
 6308	0x7B70	筰 (<CJK Ideograph>)
 6309	0x7B71	筱 (<CJK Ideograph>)
 6310	0x7B6C	筬 (<CJK Ideograph>)
 6311	0x7B6E	筮 (<CJK Ideograph>)
 6312	0x7B9D	箝 (<CJK Ideograph>)
 6313	0x7B98	箘 (<CJK Ideograph>)
 6314	0x7B9F	箟 (<CJK Ideograph>)
 6315	0x7B8D	箍 (<CJK Ideograph>)
 6316	0x7B9C	箜 (<CJK Ideograph>)
 6317	0x7B9A	箚 (<CJK Ideograph>)
 6318	0x7B8B	箋 (<CJK Ideograph>)
 6319	0x7B92	箒 (<CJK Ideograph>)
 6320	0x7B8F	箏 (<CJK Ideograph>)
 6321	0x7B5D	筝 (<CJK Ideograph>)
 6322	0x7B99	箙 (<CJK Ideograph>)
 6323	0x7BCB	篋 (<CJK Ideograph>)
 6324	0x7BC1	篁 (<CJK Ideograph>)
 6325	0x7BCC	篌 (<CJK Ideograph>)
 6326	0x7BCF	篏 (<CJK Ideograph>)
 6327	0x7BB4	箴 (<CJK Ideograph>)
 6328	0x7BC6	篆 (<CJK Ideograph>)
 6329	0x7BDD	篝 (<CJK Ideograph>)
 6330	0x7BE9	篩 (<CJK Ideograph>)
 6331	0x7C11	簑 (<CJK Ideograph>)
 6332	0x7C14	簔 (<CJK Ideograph>)
 6333	0x7BE6	篦 (<CJK Ideograph>)
 6334	0x7BE5	篥 (<CJK Ideograph>)
 6335	0x7C60	籠 (<CJK Ideograph>)
 6336	0x7C00	簀 (<CJK Ideograph>)
 6337	0x7C07	簇 (<CJK Ideograph>)
 6338	0x7C13	簓 (<CJK Ideograph>)
 6339	0x7BF3	篳 (<CJK Ideograph>)
 6340	0x7BF7	篷 (<CJK Ideograph>)
 6341	0x7C17	簗 (<CJK Ideograph>)
 6342	0x7C0D	簍 (<CJK Ideograph>)
 6343	0x7BF6	篶 (<CJK Ideograph>)
 6344	0x7C23	簣 (<CJK Ideograph>)
 6345	0x7C27	簧 (<CJK Ideograph>)
 6346	0x7C2A	簪 (<CJK Ideograph>)
 6347	0x7C1F	簟 (<CJK Ideograph>)
 6348	0x7C37	簷 (<CJK Ideograph>)
 6349	0x7C2B	簫 (<CJK Ideograph>)
 6350	0x7C3D	簽 (<CJK Ideograph>)
 6351	0x7C4C	籌 (<CJK Ideograph>)
 6352	0x7C43	籃 (<CJK Ideograph>)
 6353	0x7C54	籔 (<CJK Ideograph>)
 6354	0x7C4F	籏 (<CJK Ideograph>)
 6355	0x7C40	籀 (<CJK Ideograph>)
 6356	0x7C50	籐 (<CJK Ideograph>)
 6357	0x7C58	籘 (<CJK Ideograph>)
 6358	0x7C5F	籟 (<CJK Ideograph>)
 6359	0x7C64	籤 (<CJK Ideograph>)
 6360	0x7C56	籖 (<CJK Ideograph>)
 6361	0x7C65	籥 (<CJK Ideograph>)
 6362	0x7C6C	籬 (<CJK Ideograph>)
 6363	0x7C75	籵 (<CJK Ideograph>)
 6364	0x7C83	粃 (<CJK Ideograph>)
 6365	0x7C90	粐 (<CJK Ideograph>)
 6366	0x7CA4	粤 (<CJK Ideograph>)
 6367	0x7CAD	粭 (<CJK Ideograph>)
 6368	0x7CA2	粢 (<CJK Ideograph>)
 6369	0x7CAB	粫 (<CJK Ideograph>)
 6370	0x7CA1	粡 (<CJK Ideograph>)
 6371	0x7CA8	粨 (<CJK Ideograph>)
 6372	0x7CB3	粳 (<CJK Ideograph>)
 6373	0x7CB2	粲 (<CJK Ideograph>)
 6374	0x7CB1	粱 (<CJK Ideograph>)
 6375	0x7CAE	粮 (<CJK Ideograph>)
 6376	0x7CB9	粹 (<CJK Ideograph>)
 6377	0x7CBD	粽 (<CJK Ideograph>)
 6378	0x7CC0	糀 (<CJK Ideograph>)
 6379	0x7CC5	糅 (<CJK Ideograph>)
 6380	0x7CC2	糂 (<CJK Ideograph>)
 6381	0x7CD8	糘 (<CJK Ideograph>)
 6382	0x7CD2	糒 (<CJK Ideograph>)
 6383	0x7CDC	糜 (<CJK Ideograph>)
 6384	0x7CE2	糢 (<CJK Ideograph>)
 6385	0x9B3B	鬻 (<CJK Ideograph>)
 6386	0x7CEF	糯 (<CJK Ideograph>)
 6387	0x7CF2	糲 (<CJK Ideograph>)
 6388	0x7CF4	糴 (<CJK Ideograph>)
 6389	0x7CF6	糶 (<CJK Ideograph>)
 6390	0x7CFA	糺 (<CJK Ideograph>)
 6391	0x7D06	紆 (<CJK Ideograph>)
"#

/-- encoding_tables/whatwg/index-jis0208.txt:5553-5740 -/
noncomputable def index34 : List Text := lines! r#" 6392	0x7D02	紂 (<CJK Ideograph>)
 6393	0x7D1C	紜 (<CJK Ideograph>)
 6394	0x7D15	紕 (<CJK Ideograph>)
 6395	0x7D0A	紊 (<CJK Ideograph>)
 6396	0x7D45	絅 (<CJK Ideograph>)
 6397	0x7D4B	絋 (<CJK Ideograph>)
 6398	0x7D2E	紮 (<CJK Ideograph>)
 6399	0x7D32	紲 (<CJK Ideograph>)
 6400	0x7D3F	紿 (<CJK Ideograph>)
 6401	0x7D35	紵 (<CJK Ideograph>)
 6402	0x7D46	絆 (<CJK Ideograph>)
 6403	0x7D73	絳 (<CJK Ideograph>)
 6404	0x7D56	絖 (<CJK Ideograph>)
 6405	0x7D4E	絎 (<CJK Ideograph>)
 6406	0x7D72	絲 (<CJK Ideograph>)
 6407	0x7D68	絨 (<CJK Ideograph>)
 6408	0x7D6E	絮 (<CJK Ideograph>)
 6409	0x7D4F	絏 (<CJK Ideograph>)
 6410	0x7D63	絣 (<CJK Ideograph>)
 6411	0x7D93	經 (<CJK Ideograph>)
 6412	0x7D89	綉 (<CJK Ideograph>)
 6413	0x7D5B	絛 (<CJK Ideograph>)
 6414	0x7D8F	綏 (<CJK Ideograph>)
 6415	0x7D7D	絽 (<CJK Ideograph>)
 6416	0x7D9B	綛 (<CJK Ideograph>)
 6417	0x7DBA	綺 (<CJK Ideograph>)
 6418	0x7DAE	綮 (<CJK Ideograph>)
 6419	0x7DA3	綣 (<CJK Ideograph>)
 6420	0x7DB5	綵 (<CJK Ideograph>)
 6421	0x7DC7	緇 (<CJK Ideograph>)
 6422	0x7DBD	綽 (<CJK Ideograph>)
 6423	0x7DAB	綫 (<CJK Ideograph>)
 6424	0x7E3D	總 (<CJK Ideograph>)
 6425	0x7DA2	綢 (<CJK Ideograph>)
 6426	0x7DAF	綯 (<CJK Ideograph>)
 6427	0x7DDC	緜 (<CJK Ideograph>)
 6428	0x7DB8	綸 (<CJK Ideograph>)
 6429	0x7D9F	綟 (<CJK Ideograph>)
 6430	0x7DB0	綰 (<CJK Ideograph>)
 6431	0x7DD8	緘 (<CJK Ideograph>)
 6432	0x7DDD	緝 (<CJK Ideograph>)
 6433	0x7DE4	緤 (<CJK Ideograph>)
 6434	0x7DDE	緞 (<CJK Ideograph>)
 6435	0x7DFB	緻 (<CJK Ideograph>)
 6436	0x7DF2	緲 (<CJK Ideograph>)
 6437	0x7DE1	緡 (<CJK Ideograph>)
 6438	0x7E05	縅 (<CJK Ideograph>)
 6439	0x7E0A	縊 (<CJK Ideograph>)
 6440	0x7E23	縣 (<CJK Ideograph>)
 6441	0x7E21	縡 (<CJK Ideograph>)
 6442	0x7E12	縒 (<CJK Ideograph>)
 6443	0x7E31	縱 (<CJK Ideograph>)
 6444	0x7E1F	縟 (<CJK Ideograph>)
 6445	0x7E09	縉 (<CJK Ideograph>)
 6446	0x7E0B	縋 (<CJK Ideograph>)
 6447	0x7E22	縢 (<CJK Ideograph>)
 6448	0x7E46	繆 (<CJK Ideograph>)
 6449	0x7E66	繦 (<CJK Ideograph>)
 6450	0x7E3B	縻 (<CJK Ideograph>)
 6451	0x7E35	縵 (<CJK Ideograph>)
 6452	0x7E39	縹 (<CJK Ideograph>)
 6453	0x7E43	繃 (<CJK Ideograph>)
 6454	0x7E37	縷 (<CJK Ideograph>)
 6455	0x7E32	縲 (<CJK Ideograph>)
 6456	0x7E3A	縺 (<CJK Ideograph>)
 6457	0x7E67	繧 (<CJK Ideograph>)
 6458	0x7E5D	繝 (<CJK Ideograph>)
 6459	0x7E56	繖 (<CJK Ideograph>)
 6460	0x7E5E	繞 (<CJK Ideograph>)
 6461	0x7E59	繙 (<CJK Ideograph>)
 6462	0x7E5A	繚 (<CJK Ideograph>)
 6463	0x7E79	繹 (<CJK Ideograph>)
 6464	0x7E6A	繪 (<CJK Ideograph>)
 6465	0x7E69	繩 (<CJK Ideograph>)
 6466	0x7E7C	繼 (<CJK Ideograph>)
 6467	0x7E7B	繻 (<CJK Ideograph>)
 6468	0x7E83	纃 (<CJK Ideograph>)
 6469	0x7DD5	緕 (<CJK Ideograph>)
 6470	0x7E7D	繽 (<CJK Ideograph>)
 6471	0x8FAE	辮 (<CJK Ideograph>)
 6472	0x7E7F	繿 (<CJK Ideograph>)
 6473	0x7E88	纈 (<CJK Ideograph>)
 6474	0x7E89	纉 (<CJK Ideograph>)
 6475	0x7E8C	續 (<CJK Ideograph>)
 6476	0x7E92	纒 (<CJK Ideograph>)
 6477	0x7E90	纐 (<CJK Ideograph>)
 6478	0x7E93	纓 (<CJK Ideograph>)
 6479	0x7E94	纔 (<CJK Ideograph>)
 6480	0x7E96	纖 (<CJK Ideograph>)
 6481	0x7E8E	纎 (<CJK Ideograph>)
 6482	0x7E9B	纛 (<CJK Ideograph>)
 6483	0x7E9C	纜 (<CJK Ideograph>)
 6484	0x7F38	缸 (<CJK Ideograph>)
 6485	0x7F3A	缺 (<CJK Ideograph>)
 6486	0x7F45	罅 (<CJK Ideograph>)
 6487	0x7F4C	罌 (<CJK Ideograph>)
 6488	0x7F4D	罍 (<CJK Ideograph>)
 6489	0x7F4E	罎 (<CJK Ideograph>)
 6490	0x7F50	罐 (<CJK Ideograph>)
 6491	0x7F51	网 (<CJK Ideograph>)
 6492	0x7F55	罕 (<CJK Ideograph>)
 6493	0x7F54	罔 (<CJK Ideograph>)
 6494	0x7F58	罘 (<CJK Ideograph>)
 6495	0x7F5F	罟 (<CJK Ideograph>)
 6496	0x7F60	罠 (<CJK Ideograph>)
 6497	0x7F68	罨 (<CJK Ideograph>)
 6498	0x7F69	罩 (<CJK Ideograph>)
 6499	0x7F67	罧 (<CJK Ideograph>)
 6500	0x7F78	罸 (<CJK Ideograph>)
 6501	0x7F82	羂 (<CJK Ideograph>)
 6502	0x7F86	羆 (<CJK Ideograph>)
 6503	0x7F83	羃 (<CJK Ideograph>)
 6504	0x7F88	羈 (<CJK Ideograph>)
 6505	0x7F87	羇 (<CJK Ideograph>)
 6506	0x7F8C	羌 (<CJK Ideograph>)
 6507	0x7F94	羔 (<CJK Ideograph>)
 6508	0x7F9E	羞 (<CJK Ideograph>)
 6509	0x7F9D	羝 (<CJK Ideograph>)
 6510	0x7F9A	羚 (<CJK Ideograph>)
 6511	0x7FA3	羣 (<CJK Ideograph>)
 6512	0x7FAF	羯 (<CJK Ideograph>)
 6513	0x7FB2	羲 (<CJK Ideograph>)
 6514	0x7FB9	羹 (<CJK Ideograph>)
 6515	0x7FAE	羮 (<CJK Ideograph>)
 6516	0x7FB6	羶 (<CJK Ideograph>)
 6517	0x7FB8	羸 (<CJK Ideograph>)
 6518	0x8B71	譱 (<CJK Ideograph>)
 6519	0x7FC5	翅 (<CJK Ideograph>)
 6520	0x7FC6	翆 (<CJK Ideograph>)
 6521	0x7FCA	翊 (<CJK Ideograph>)
 6522	0x7FD5	翕 (<CJK Ideograph>)
 6523	0x7FD4	翔 (<CJK Ideograph>)
 6524	0x7FE1	翡 (<CJK Ideograph>)
 6525	0x7FE6	翦 (<CJK Ideograph>)
 6526	0x7FE9	翩 (<CJK Ideograph>)
 6527	0x7FF3	翳 (<CJK Ideograph>)
 6528	0x7FF9	翹 (<CJK Ideograph>)
 6529	0x98DC	飜 (<CJK Ideograph>)
 6530	0x8006	耆 (<CJK Ideograph>)
 6531	0x8004	耄 (<CJK Ideograph>)
 6532	0x800B	耋 (<CJK Ideograph>)
 6533	0x8012	耒 (<CJK Ideograph>)
 6534	0x8018	耘 (<CJK Ideograph>)
 6535	0x8019	耙 (<CJK Ideograph>)
 6536	0x801C	耜 (<CJK Ideograph>)
 6537	0x8021	耡 (<CJK Ideograph>)
 6538	0x8028	耨 (<CJK Ideograph>)
 6539	0x803F	耿 (<CJK Ideograph>)
 6540	0x803B	耻 (<CJK Ideograph>)
 6541	0x804A	聊 (<CJK Ideograph>)
 6542	0x8046	聆 (<CJK Ideograph>)
 6543	0x8052	聒 (<CJK Ideograph>)
 6544	0x8058	聘 (<CJK Ideograph>)
 6545	0x805A	聚 (<CJK Ideograph>)
 6546	0x805F	聟 (<CJK Ideograph>)
 6547	0x8062	聢 (<CJK Ideograph>)
 6548	0x8068	聨 (<CJK Ideograph>)
 6549	0x8073	聳 (<CJK Ideograph>)
 6550	0x8072	聲 (<CJK Ideograph>)
 6551	0x8070	聰 (<CJK Ideograph>)
 6552	0x8076	聶 (<CJK Ideograph>)
 6553	0x8079	聹 (<CJK Ideograph>)
 6554	0x807D	聽 (<CJK Ideograph>)
 6555	0x807F	聿 (<CJK Ideograph>)
 6556	0x8084	肄 (<CJK Ideograph>)
 6557	0x8086	肆 (<CJK Ideograph>)
 6558	0x8085	肅 (<CJK Ideograph>)
 6559	0x809B	肛 (<CJK Ideograph>)
 6560	0x8093	肓 (<CJK Ideograph>)
 6561	0x809A	肚 (<CJK Ideograph>)
 6562	0x80AD	肭 (<CJK Ideograph>)
 6563	0x5190	冐 (<CJK Ideograph>)
 6564	0x80AC	肬 (<CJK Ideograph>)
 6565	0x80DB	胛 (<CJK Ideograph>)
 6566	0x80E5	胥 (<CJK Ideograph>)
 6567	0x80D9	胙 (<CJK Ideograph>)
 6568	0x80DD	胝 (<CJK Ideograph>)
 6569	0x80C4	胄 (<CJK Ideograph>)
 6570	0x80DA	胚 (<CJK Ideograph>)
 6571	0x80D6	胖 (<CJK Ideograph>)
 6572	0x8109	脉 (<CJK Ideograph>)
 6573	0x80EF	胯 (<CJK Ideograph>)
 6574	0x80F1	胱 (<CJK Ideograph>)
 6575	0x811B	脛 (<CJK Ideograph>)
 6576	0x8129	脩 (<CJK Ideograph>)
 6577	0x8123	脣 (<CJK Ideograph>)
 6578	0x812F	脯 (<CJK Ideograph>)
 6579	0x814B	腋 (<CJK Ideograph>)
"#

/-- encoding_tables/whatwg/index-jis0208.txt:5741-5928 -/
noncomputable def index35 : List Text := lines! r#" 6580	0x968B	隋 (<CJK Ideograph>)
 6581	0x8146	腆 (<CJK Ideograph>)
 6582	0x813E	脾 (<CJK Ideograph>)
 6583	0x8153	腓 (<CJK Ideograph>)
 6584	0x8151	腑 (<CJK Ideograph>)
 6585	0x80FC	胼 (<CJK Ideograph>)
 6586	0x8171	腱 (<CJK Ideograph>)
 6587	0x816E	腮 (<CJK Ideograph>)
 6588	0x8165	腥 (<CJK Ideograph>)
 6589	0x8166	腦 (<CJK Ideograph>)
 6590	0x8174	腴 (<CJK Ideograph>)
 6591	0x8183	膃 (<CJK Ideograph>)
 6592	0x8188	膈 (<CJK Ideograph>)
 6593	0x818A	膊 (<CJK Ideograph>)
 6594	0x8180	膀 (<CJK Ideograph>)
 6595	0x8182	膂 (<CJK Ideograph>)
 6596	0x81A0	膠 (<CJK Ideograph>)
 6597	0x8195	膕 (<CJK Ideograph>)
 6598	0x81A4	膤 (<CJK Ideograph>)
 6599	0x81A3	膣 (<CJK Ideograph>)
 6600	0x815F	腟 (<CJK Ideograph>)
 6601	0x8193	膓 (<CJK Ideograph>)
 6602	0x81A9	膩 (<CJK Ideograph>)
 6603	0x81B0	膰 (<CJK Ideograph>)
 6604	0x81B5	膵 (<CJK Ideograph>)
 6605	0x81BE	膾 (<CJK Ideograph>)
 6606	0x81B8	膸 (<CJK Ideograph>)
 6607	0x81BD	膽 (<CJK Ideograph>)
 6608	0x81C0	臀 (<CJK Ideograph>)
 6609	0x81C2	臂 (<CJK Ideograph>)
 6610	0x81BA	膺 (<CJK Ideograph>)
 6611	0x81C9	臉 (<CJK Ideograph>)
 6612	0x81CD	臍 (<CJK Ideograph>)
 6613	0x81D1	臑 (<CJK Ideograph>)
 6614	0x81D9	臙 (<CJK Ideograph>)
 6615	0x81D8	臘 (<CJK Ideograph>)
 6616	0x81C8	臈 (<CJK Ideograph>)
 6617	0x81DA	臚 (<CJK Ideograph>)
 6618	0x81DF	臟 (<CJK Ideograph>)
 6619	0x81E0	臠 (<CJK Ideograph>)
 6620	0x81E7	臧 (<CJK Ideograph>)
 6621	0x81FA	臺 (<CJK Ideograph>)
 6622	0x81FB	臻 (<CJK Ideograph>)
 6623	0x81FE	臾 (<CJK Ideograph>)
 6624	0x8201	舁 (<CJK Ideograph>)
 6625	0x8202	舂 (<CJK Ideograph>)
 6626	0x8205	舅 (<CJK Ideograph>)
 6627	0x8207	與 (<CJK Ideograph>)
 6628	0x820A	舊 (<CJK Ideograph>)
 6629	0x820D	舍 (<CJK Ideograph>)
 6630	0x8210	舐 (<CJK Ideograph>)
 6631	0x8216	舖 (<CJK Ideograph>)
 6632	0x8229	舩 (<CJK Ideograph>)
 6633	0x822B	舫 (<CJK Ideograph>)
 6634	0x8238	舸 (<CJK Ideograph>)
 6635	0x8233	舳 (<CJK Ideograph>)
 6636	0x8240	艀 (<CJK Ideograph>)
 6637	0x8259	艙 (<CJK Ideograph>)
 6638	0x8258	艘 (<CJK Ideograph>)
 6639	0x825D	艝 (<CJK Ideograph>)
 6640	0x825A	艚 (<CJK Ideograph>)
 6641	0x825F	艟 (<CJK Ideograph>)
 6642	0x8264	艤 (<CJK Ideograph>)
 6643	0x8262	艢 (<CJK Ideograph>)
 6644	0x8268	艨 (<CJK Ideograph>)
 6645	0x826A	艪 (<CJK Ideograph>)
 6646	0x826B	艫 (<CJK Ideograph>)
 6647	0x822E	舮 (<CJK Ideograph>)
 6648	0x8271	艱 (<CJK Ideograph>)
 6649	0x8277	艷 (<CJK Ideograph>)
 6650	0x8278	艸 (<CJK Ideograph>)
 6651	0x827E	艾 (<CJK Ideograph>)
 6652	0x828D	芍 (<CJK Ideograph>)
 6653	0x8292	芒 (<CJK Ideograph>)
 6654	0x82AB	芫 (<CJK Ideograph>)
 6655	0x829F	芟 (<CJK Ideograph>)
 6656	0x82BB	芻 (<CJK Ideograph>)
 6657	0x82AC	芬 (<CJK Ideograph>)
 6658	0x82E1	苡 (<CJK Ideograph>)
 6659	0x82E3	苣 (<CJK Ideograph>)
 6660	0x82DF	苟 (<CJK Ideograph>)
 6661	0x82D2	苒 (<CJK Ideograph>)
 6662	0x82F4	苴 (<CJK Ideograph>)
 6663	0x82F3	苳 (<CJK Ideograph>)
 6664	0x82FA	苺 (<CJK Ideograph>)
 6665	0x8393	莓 (<CJK Ideograph>)
 6666	0x8303	范 (<CJK Ideograph>)
 6667	0x82FB	苻 (<CJK Ideograph>)
 6668	0x82F9	苹 (<CJK Ideograph>)
 6669	0x82DE	苞 (<CJK Ideograph>)
 6670	0x8306	茆 (<CJK Ideograph>)
 6671	0x82DC	苜 (<CJK Ideograph>)
 6672	0x8309	茉 (<CJK Ideograph>)
 6673	0x82D9	苙 (<CJK Ideograph>)
 6674	0x8335	茵 (<CJK Ideograph>)
 6675	0x8334	茴 (<CJK Ideograph>)
 6676	0x8316	茖 (<CJK Ideograph>)
 6677	0x8332	茲 (<CJK Ideograph>)
 6678	0x8331	茱 (<CJK Ideograph>)
 6679	0x8340	荀 (<CJK Ideograph>)
 6680	0x8339	茹 (<CJK Ideograph>)
 6681	0x8350	荐 (<CJK Ideograph>)
 6682	0x8345	荅 (<CJK Ideograph>)
 6683	0x832F	茯 (<CJK Ideograph>)
 6684	0x832B	茫 (<CJK Ideograph>)
 6685	0x8317	茗 (<CJK Ideograph>)
 6686	0x8318	茘 (<CJK Ideograph>)
 6687	0x8385	莅 (<CJK Ideograph>)
 6688	0x839A	莚 (<CJK Ideograph>)
 6689	0x83AA	莪 (<CJK Ideograph>)
 6690	0x839F	莟 (<CJK Ideograph>)
 6691	0x83A2	莢 (<CJK Ideograph>)
 6692	0x8396	莖 (<CJK Ideograph>)
 6693	0x8323	茣 (<CJK Ideograph>)
 6694	0x838E	莎 (<CJK Ideograph>)
 6695	0x8387	莇 (<CJK Ideograph>)
 6696	0x838A	莊 (<CJK Ideograph>)
 6697	0x837C	荼 (<CJK Ideograph>)
 6698	0x83B5	莵 (<CJK Ideograph>)
 6699	0x8373	荳 (<CJK Ideograph>)
 6700	0x8375	荵 (<CJK Ideograph>)
 6701	0x83A0	莠 (<CJK Ideograph>)
 6702	0x8389	莉 (<CJK Ideograph>)
 6703	0x83A8	莨 (<CJK Ideograph>)
 6704	0x83F4	菴 (<CJK Ideograph>)
 6705	0x8413	萓 (<CJK Ideograph>)
 6706	0x83EB	菫 (<CJK Ideograph>)
 6707	0x83CE	菎 (<CJK Ideograph>)
 6708	0x83FD	菽 (<CJK Ideograph>)
 6709	0x8403	萃 (<CJK Ideograph>)
 6710	0x83D8	菘 (<CJK Ideograph>)
 6711	0x840B	萋 (<CJK Ideograph>)
 6712	0x83C1	菁 (<CJK Ideograph>)
 6713	0x83F7	菷 (<CJK Ideograph>)
 6714	0x8407	萇 (<CJK Ideograph>)
 6715	0x83E0	菠 (<CJK Ideograph>)
 6716	0x83F2	菲 (<CJK Ideograph>)
 6717	0x840D	萍 (<CJK Ideograph>)
 6718	0x8422	萢 (<CJK Ideograph>)
 6719	0x8420	萠 (<CJK Ideograph>)
 6720	0x83BD	莽 (<CJK Ideograph>)
 6721	0x8438	萸 (<CJK Ideograph>)
 6722	0x8506	蔆 (<CJK Ideograph>)
 6723	0x83FB	菻 (<CJK Ideograph>)
 6724	0x846D	葭 (<CJK Ideograph>)
 6725	0x842A	萪 (<CJK Ideograph>)
 6726	0x843C	萼 (<CJK Ideograph>)
 6727	0x855A	蕚 (<CJK Ideograph>)
 6728	0x8484	蒄 (<CJK Ideograph>)
 6729	0x8477	葷 (<CJK Ideograph>)
 6730	0x846B	葫 (<CJK Ideograph>)
 6731	0x84AD	蒭 (<CJK Ideograph>)
 6732	0x846E	葮 (<CJK Ideograph>)
 6733	0x8482	蒂 (<CJK Ideograph>)
 6734	0x8469	葩 (<CJK Ideograph>)
 6735	0x8446	葆 (<CJK Ideograph>)
 6736	0x842C	萬 (<CJK Ideograph>)
 6737	0x846F	葯 (<CJK Ideograph>)
 6738	0x8479	葹 (<CJK Ideograph>)
 6739	0x8435	萵 (<CJK Ideograph>)
 6740	0x84CA	蓊 (<CJK Ideograph>)
 6741	0x8462	葢 (<CJK Ideograph>)
 6742	0x84B9	蒹 (<CJK Ideograph>)
 6743	0x84BF	蒿 (<CJK Ideograph>)
 6744	0x849F	蒟 (<CJK Ideograph>)
 6745	0x84D9	蓙 (<CJK Ideograph>)
 6746	0x84CD	蓍 (<CJK Ideograph>)
 6747	0x84BB	蒻 (<CJK Ideograph>)
 6748	0x84DA	蓚 (<CJK Ideograph>)
 6749	0x84D0	蓐 (<CJK Ideograph>)
 6750	0x84C1	蓁 (<CJK Ideograph>)
 6751	0x84C6	蓆 (<CJK Ideograph>)
 6752	0x84D6	蓖 (<CJK Ideograph>)
 6753	0x84A1	蒡 (<CJK Ideograph>)
 6754	0x8521	蔡 (<CJK Ideograph>)
 6755	0x84FF	蓿 (<CJK Ideograph>)
 6756	0x84F4	蓴 (<CJK Ideograph>)
 6757	0x8517	蔗 (<CJK Ideograph>)
 6758	0x8518	蔘 (<CJK Ideograph>)
 6759	0x852C	蔬 (<CJK Ideograph>)
 6760	0x851F	蔟 (<CJK Ideograph>)
 6761	0x8515	蔕 (<CJK Ideograph>)
 6762	0x8514	蔔 (<CJK Ideograph>)
 6763	0x84FC	蓼 (<CJK Ideograph>)
 6764	0x8540	蕀 (<CJK Ideograph>)
 6765	0x8563	蕣 (<CJK Ideograph>)
 6766	0x8558	蕘 (<CJK Ideograph>)
 6767	0x8548	蕈 (<CJK Ideograph>)
"#

/-- encoding_tables/whatwg/index-jis0208.txt:5929-6116 -/
noncomputable def index36 : List Text := lines! r#" 6768	0x8541	蕁 (<CJK Ideograph>)
 6769	0x8602	蘂 (<CJK Ideograph>)
 6770	0x854B	蕋 (<CJK Ideograph>)
 6771	0x8555	蕕 (<CJK Ideograph>)
 6772	0x8580	薀 (<CJK Ideograph>)
 6773	0x85A4	薤 (<CJK Ideograph>)
 6774	0x8588	薈 (<CJK Ideograph>)
 6775	0x8591	薑 (<CJK Ideograph>)
 6776	0x858A	薊 (<CJK Ideograph>)
 6777	0x85A8	薨 (<CJK Ideograph>)
 6778	0x856D	蕭 (<CJK Ideograph>)
 6779	0x8594	薔 (<CJK Ideograph>)
 6780	0x859B	薛 (<CJK Ideograph>)
 6781	0x85EA	藪 (<CJK Ideograph>)
 6782	0x8587	薇 (<CJK Ideograph>)
 6783	0x859C	薜 (<CJK Ideograph>)
 6784	0x8577	蕷 (<CJK Ideograph>)
 6785	0x857E	蕾 (<CJK Ideograph>)
 6786	0x8590	薐 (<CJK Ideograph>)
 6787	0x85C9	藉 (<CJK Ideograph>)
 6788	0x85BA	薺 (<CJK Ideograph>)
 6789	0x85CF	藏 (<CJK Ideograph>)
 6790	0x85B9	薹 (<CJK Ideograph>)
 6791	0x85D0	藐 (<CJK Ideograph>)
 6792	0x85D5	藕 (<CJK Ideograph>)
 6793	0x85DD	藝 (<CJK Ideograph>)
 6794	0x85E5	藥 (<CJK Ideograph>)
 6795	0x85DC	藜 (<CJK Ideograph>)
 6796	0x85F9	藹 (<CJK Ideograph>)
 6797	0x860A	蘊 (<CJK Ideograph>)
 6798	0x8613	蘓 (<CJK Ideograph>)
 6799	0x860B	蘋 (<CJK Ideograph>)
 6800	0x85FE	藾 (<CJK Ideograph>)
 6801	0x85FA	藺 (<CJK Ideograph>)
 6802	0x8606	蘆 (<CJK Ideograph>)
 6803	0x8622	蘢 (<CJK Ideograph>)
 6804	0x861A	蘚 (<CJK Ideograph>)
 6805	0x8630	蘰 (<CJK Ideograph>)
 6806	0x863F	蘿 (<CJK Ideograph>)
 6807	0x864D	虍 (<CJK Ideograph>)
 6808	0x4E55	乕 (<CJK Ideograph>)
 6809	0x8654	虔 (<CJK Ideograph>)
 6810	0x865F	號 (<CJK Ideograph>)
 6811	0x8667	虧 (<CJK Ideograph>)
 6812	0x8671	虱 (<CJK Ideograph>)
 6813	0x8693	蚓 (<CJK Ideograph>)
 6814	0x86A3	蚣 (<CJK Ideograph>)
 6815	0x86A9	蚩 (<CJK Ideograph>)
 6816	0x86AA	蚪 (<CJK Ideograph>)
 6817	0x868B	蚋 (<CJK Ideograph>)
 6818	0x868C	蚌 (<CJK Ideograph>)
 6819	0x86B6	蚶 (<CJK Ideograph>)
 6820	0x86AF	蚯 (<CJK Ideograph>)
 6821	0x86C4	蛄 (<CJK Ideograph>)
 6822	0x86C6	蛆 (<CJK Ideograph>)
 6823	0x86B0	蚰 (<CJK Ideograph>)
 6824	0x86C9	蛉 (<CJK Ideograph>)
 6825	0x8823	蠣 (<CJK Ideograph>)
 6826	0x86AB	蚫 (<CJK Ideograph>)
 6827	0x86D4	蛔 (<CJK Ideograph>)
 6828	0x86DE	蛞 (<CJK Ideograph>)
 6829	0x86E9	蛩 (<CJK Ideograph>)
 6830	0x86EC	蛬 (<CJK Ideograph>)
 6831	0x86DF	蛟 (<CJK Ideograph>)
 6832	0x86DB	蛛 (<CJK Ideograph>)
 6833	0x86EF	蛯 (<CJK Ideograph>)
 6834	0x8712	蜒 (<CJK Ideograph>)
 6835	0x8706	蜆 (<CJK Ideograph>)
 6836	0x8708	蜈 (<CJK Ideograph>)
 6837	0x8700	蜀 (<CJK Ideograph>)
 6838	0x8703	蜃 (<CJK Ideograph>)
 6839	0x86FB	蛻 (<CJK Ideograph>)
 6840	0x8711	蜑 (<CJK Ideograph>)
 6841	0x8709	蜉 (<CJK Ideograph>)
 6842	0x870D	蜍 (<CJK Ideograph>)
 6843	0x86F9	蛹 (<CJK Ideograph>)
 6844	0x870A	蜊 (<CJK Ideograph>)
 6845	0x8734	蜴 (<CJK Ideograph>)
 6846	0x873F	蜿 (<CJK Ideograph>)
 6847	0x8737	蜷 (<CJK Ideograph>)
 6848	0x873B	蜻 (<CJK Ideograph>)
 6849	0x8725	蜥 (<CJK Ideograph>)
 6850	0x8729	蜩 (<CJK Ideograph>)
 6851	0x871A	蜚 (<CJK Ideograph>)
 6852	0x8760	蝠 (<CJK Ideograph>)
 6853	0x875F	蝟 (<CJK Ideograph>)
 6854	0x8778	蝸 (<CJK Ideograph>)
 6855	0x874C	蝌 (<CJK Ideograph>)
 6856	0x874E	蝎 (<CJK Ideograph>)
 6857	0x8774	蝴 (<CJK Ideograph>)
 6858	0x8757	蝗 (<CJK Ideograph>)
 6859	0x8768	蝨 (<CJK Ideograph>)
 6860	0x876E	蝮 (<CJK Ideograph>)
 6861	0x8759	蝙 (<CJK Ideograph>)
 6862	0x8753	蝓 (<CJK Ideograph>)
 6863	0x8763	蝣 (<CJK Ideograph>)
 6864	0x876A	蝪 (<CJK Ideograph>)
 6865	0x8805	蠅 (<CJK Ideograph>)
 6866	0x87A2	螢 (<CJK Ideograph>)
 6867	0x879F	螟 (<CJK Ideograph>)
 6868	0x8782	螂 (<CJK Ideograph>)
 6869	0x87AF	螯 (<CJK Ideograph>)
 6870	0x87CB	蟋 (<CJK Ideograph>)
 6871	0x87BD	螽 (<CJK Ideograph>)
 6872	0x87C0	蟀 (<CJK Ideograph>)
 6873	0x87D0	蟐 (<CJK Ideograph>)
 6874	0x96D6	雖 (<CJK Ideograph>)
 6875	0x87AB	螫 (<CJK Ideograph>)
 6876	0x87C4	蟄 (<CJK Ideograph>)
 6877	0x87B3	螳 (<CJK Ideograph>)
 6878	0x87C7	蟇 (<CJK Ideograph>)
 6879	0x87C6	蟆 (<CJK Ideograph>)
 6880	0x87BB	螻 (<CJK Ideograph>)
 6881	0x87EF	蟯 (<CJK Ideograph>)
 6882	0x87F2	蟲 (<CJK Ideograph>)
 6883	0x87E0	蟠 (<CJK Ideograph>)
 6884	0x880F	蠏 (<CJK Ideograph>)
 6885	0x880D	蠍 (<CJK Ideograph>)
 6886	0x87FE	蟾 (<CJK Ideograph>)
 6887	0x87F6	蟶 (<CJK Ideograph>)
 6888	0x87F7	蟷 (<CJK Ideograph>)
 6889	0x880E	蠎 (<CJK Ideograph>)
 6890	0x87D2	蟒 (<CJK Ideograph>)
 6891	0x8811	蠑 (<CJK Ideograph>)
 6892	0x8816	蠖 (<CJK Ideograph>)
 6893	0x8815	蠕 (<CJK Ideograph>)
 6894	0x8822	蠢 (<CJK Ideograph>)
 6895	0x8821	蠡 (<CJK Ideograph>)
 6896	0x8831	蠱 (<CJK Ideograph>)
 6897	0x8836	蠶 (<CJK Ideograph>)
 6898	0x8839	蠹 (<CJK Ideograph>)
 6899	0x8827	蠧 (<CJK Ideograph>)
 6900	0x883B	蠻 (<CJK Ideograph>)
 6901	0x8844	衄 (<CJK Ideograph>)
 6902	0x8842	衂 (<CJK Ideograph>)
 6903	0x8852	衒 (<CJK Ideograph>)
 6904	0x8859	衙 (<CJK Ideograph>)
 6905	0x885E	衞 (<CJK Ideograph>)
 6906	0x8862	衢 (<CJK Ideograph>)
 6907	0x886B	衫 (<CJK Ideograph>)
 6908	0x8881	袁 (<CJK Ideograph>)
 6909	0x887E	衾 (<CJK Ideograph>)
 6910	0x889E	袞 (<CJK Ideograph>)
 6911	0x8875	衵 (<CJK Ideograph>)
 6912	0x887D	衽 (<CJK Ideograph>)
 6913	0x88B5	袵 (<CJK Ideograph>)
 6914	0x8872	衲 (<CJK Ideograph>)
 6915	0x8882	袂 (<CJK Ideograph>)
 6916	0x8897	袗 (<CJK Ideograph>)
 6917	0x8892	袒 (<CJK Ideograph>)
 6918	0x88AE	袮 (<CJK Ideograph>)
 6919	0x8899	袙 (<CJK Ideograph>)
 6920	0x88A2	袢 (<CJK Ideograph>)
 6921	0x888D	袍 (<CJK Ideograph>)
 6922	0x88A4	袤 (<CJK Ideograph>)
 6923	0x88B0	袰 (<CJK Ideograph>)
 6924	0x88BF	袿 (<CJK Ideograph>)
 6925	0x88B1	袱 (<CJK Ideograph>)
 6926	0x88C3	裃 (<CJK Ideograph>)
 6927	0x88C4	裄 (<CJK Ideograph>)
 6928	0x88D4	裔 (<CJK Ideograph>)
 6929	0x88D8	裘 (<CJK Ideograph>)
 6930	0x88D9	裙 (<CJK Ideograph>)
 6931	0x88DD	裝 (<CJK Ideograph>)
 6932	0x88F9	裹 (<CJK Ideograph>)
 6933	0x8902	褂 (<CJK Ideograph>)
 6934	0x88FC	裼 (<CJK Ideograph>)
 6935	0x88F4	裴 (<CJK Ideograph>)
 6936	0x88E8	裨 (<CJK Ideograph>)
 6937	0x88F2	裲 (<CJK Ideograph>)
 6938	0x8904	褄 (<CJK Ideograph>)
 6939	0x890C	褌 (<CJK Ideograph>)
 6940	0x890A	褊 (<CJK Ideograph>)
 6941	0x8913	褓 (<CJK Ideograph>)
 6942	0x8943	襃 (<CJK Ideograph>)
 6943	0x891E	褞 (<CJK Ideograph>)
 6944	0x8925	褥 (<CJK Ideograph>)
 6945	0x892A	褪 (<CJK Ideograph>)
 6946	0x892B	褫 (<CJK Ideograph>)
 6947	0x8941	襁 (<CJK Ideograph>)
 6948	0x8944	襄 (<CJK Ideograph>)
 6949	0x893B	褻 (<CJK Ideograph>)
 6950	0x8936	褶 (<CJK Ideograph>)
 6951	0x8938	褸 (<CJK Ideograph>)
 6952	0x894C	襌 (<CJK Ideograph>)
 6953	0x891D	褝 (<CJK Ideograph>)
 6954	0x8960	襠 (<CJK Ideograph>)
 6955	0x895E	襞 (<CJK Ideograph>)
"#

/-- encoding_tables/whatwg/index-jis0208.txt:6117-6304 -/
noncomputable def index37 : List Text := lines! r#" 6956	0x8966	襦 (<CJK Ideograph>)
 6957	0x8964	襤 (<CJK Ideograph>)
 6958	0x896D	襭 (<CJK Ideograph>)
 6959	0x896A	襪 (<CJK Ideograph>)
 6960	0x896F	襯 (<CJK Ideograph>)
 6961	0x8974	襴 (<CJK Ideograph>)
 6962	0x8977	襷 (<CJK Ideograph>)
 6963	0x897E	襾 (<CJK Ideograph>)
 6964	0x8983	覃 (<CJK Ideograph>)
 6965	0x8988	覈 (<CJK Ideograph>)
 6966	0x898A	覊 (<CJK Ideograph>)
 6967	0x8993	覓 (<CJK Ideograph>)
 6968	0x8998	覘 (<CJK Ideograph>)
 6969	0x89A1	覡 (<CJK Ideograph>)
 6970	0x89A9	覩 (<CJK Ideograph>)
 6971	0x89A6	覦 (<CJK Ideograph>)
 6972	0x89AC	覬 (<CJK Ideograph>)
 6973	0x89AF	覯 (<CJK Ideograph>)
 6974	0x89B2	覲 (<CJK Ideograph>)
 6975	0x89BA	覺 (<CJK Ideograph>)
 6976	0x89BD	覽 (<CJK Ideograph>)
 6977	0x89BF	覿 (<CJK Ideograph>)
 6978	0x89C0	觀 (<CJK Ideograph>)
 6979	0x89DA	觚 (<CJK Ideograph>)
 6980	0x89DC	觜 (<CJK Ideograph>)
 6981	0x89DD	觝 (<CJK Ideograph>)
 6982	0x89E7	觧 (<CJK Ideograph>)
 6983	0x89F4	觴 (<CJK Ideograph>)
 6984	0x89F8	觸 (<CJK Ideograph>)
 6985	0x8A03	訃 (<CJK Ideograph>)
 6986	0x8A16	訖 (<CJK Ideograph>)
 6987	0x8A10	訐 (<CJK Ideograph>)
 6988	0x8A0C	訌 (<CJK Ideograph>)
 6989	0x8A1B	訛 (<CJK Ideograph>)
 6990	0x8A1D	訝 (<CJK Ideograph>)
 6991	0x8A25	訥 (<CJK Ideograph>)
 6992	0x8A36	訶 (<CJK Ideograph>)
 6993	0x8A41	詁 (<CJK Ideograph>)
 6994	0x8A5B	詛 (<CJK Ideograph>)
 6995	0x8A52	詒 (<CJK Ideograph>)
 6996	0x8A46	詆 (<CJK Ideograph>)
 6997	0x8A48	詈 (<CJK Ideograph>)
 6998	0x8A7C	詼 (<CJK Ideograph>)
 6999	0x8A6D	詭 (<CJK Ideograph>)
 7000	0x8A6C	詬 (<CJK Ideograph>)
 7001	0x8A62	詢 (<CJK Ideograph>)
 7002	0x8A85	誅 (<CJK Ideograph>)
 7003	0x8A82	誂 (<CJK Ideograph>)
 7004	0x8A84	誄 (<CJK Ideograph>)
 7005	0x8AA8	誨 (<CJK Ideograph>)
 7006	0x8AA1	誡 (<CJK Ideograph>)
 7007	0x8A91	誑 (<CJK Ideograph>)
 7008	0x8AA5	誥 (<CJK Ideograph>)
 7009	0x8AA6	誦 (<CJK Ideograph>)
 7010	0x8A9A	誚 (<CJK Ideograph>)
 7011	0x8AA3	誣 (<CJK Ideograph>)
 7012	0x8AC4	諄 (<CJK Ideograph>)
 7013	0x8ACD	諍 (<CJK Ideograph>)
 7014	0x8AC2	諂 (<CJK Ideograph>)
 7015	0x8ADA	諚 (<CJK Ideograph>)
 7016	0x8AEB	諫 (<CJK Ideograph>)
 7017	0x8AF3	諳 (<CJK Ideograph>)
 7018	0x8AE7	諧 (<CJK Ideograph>)
 7019	0x8AE4	諤 (<CJK Ideograph>)
 7020	0x8AF1	諱 (<CJK Ideograph>)
 7021	0x8B14	謔 (<CJK Ideograph>)
 7022	0x8AE0	諠 (<CJK Ideograph>)
 7023	0x8AE2	諢 (<CJK Ideograph>)
 7024	0x8AF7	諷 (<CJK Ideograph>)
 7025	0x8ADE	諞 (<CJK Ideograph>)
 7026	0x8ADB	諛 (<CJK Ideograph>)
 7027	0x8B0C	謌 (<CJK Ideograph>)
 7028	0x8B07	謇 (<CJK Ideograph>)
 7029	0x8B1A	謚 (<CJK Ideograph>)
 7030	0x8AE1	諡 (<CJK Ideograph>)
 7031	0x8B16	謖 (<CJK Ideograph>)
 7032	0x8B10	謐 (<CJK Ideograph>)
 7033	0x8B17	謗 (<CJK Ideograph>)
 7034	0x8B20	謠 (<CJK Ideograph>)
 7035	0x8B33	謳 (<CJK Ideograph>)
 7036	0x97AB	鞫 (<CJK Ideograph>)
 7037	0x8B26	謦 (<CJK Ideograph>)
 7038	0x8B2B	謫 (<CJK Ideograph>)
 7039	0x8B3E	謾 (<CJK Ideograph>)
 7040	0x8B28	謨 (<CJK Ideograph>)
 7041	0x8B41	譁 (<CJK Ideograph>)
 7042	0x8B4C	譌 (<CJK Ideograph>)
 7043	0x8B4F	譏 (<CJK Ideograph>)
 7044	0x8B4E	譎 (<CJK Ideograph>)
 7045	0x8B49	證 (<CJK Ideograph>)
 7046	0x8B56	譖 (<CJK Ideograph>)
 7047	0x8B5B	譛 (<CJK Ideograph>)
 7048	0x8B5A	譚 (<CJK Ideograph>)
 7049	0x8B6B	譫 (<CJK Ideograph>)
 7050	0x8B5F	譟 (<CJK Ideograph>)
 7051	0x8B6C	譬 (<CJK Ideograph>)
 7052	0x8B6F	譯 (<CJK Ideograph>)
 7053	0x8B74	譴 (<CJK Ideograph>)
 7054	0x8B7D	譽 (<CJK Ideograph>)
 7055	0x8B80	讀 (<CJK Ideograph>)
 7056	0x8B8C	讌 (<CJK Ideograph>)
 7057	0x8B8E	讎 (<CJK Ideograph>)
 7058	0x8B92	讒 (<CJK Ideograph>)
 7059	0x8B93	讓 (<CJK Ideograph>)
 7060	0x8B96	讖 (<CJK Ideograph>)
 7061	0x8B99	讙 (<CJK Ideograph>)
 7062	0x8B9A	讚 (<CJK Ideograph>)
 7063	0x8C3A	谺 (<CJK Ideograph>)
 7064	0x8C41	豁 (<CJK Ideograph>)
 7065	0x8C3F	谿 (<CJK Ideograph>)
 7066	0x8C48	豈 (<CJK Ideograph>)
 7067	0x8C4C	豌 (<CJK Ideograph>)
 7068	0x8C4E	豎 (<CJK Ideograph>)
 7069	0x8C50	豐 (<CJK Ideograph>)
 7070	0x8C55	豕 (<CJK Ideograph>)
 7071	0x8C62	豢 (<CJK Ideograph>)
 7072	0x8C6C	豬 (<CJK Ideograph>)
 7073	0x8C78	豸 (<CJK Ideograph>)
 7074	0x8C7A	豺 (<CJK Ideograph>)
 7075	0x8C82	貂 (<CJK Ideograph>)
 7076	0x8C89	貉 (<CJK Ideograph>)
 7077	0x8C85	貅 (<CJK Ideograph>)
 7078	0x8C8A	貊 (<CJK Ideograph>)
 7079	0x8C8D	貍 (<CJK Ideograph>)
 7080	0x8C8E	貎 (<CJK Ideograph>)
 7081	0x8C94	貔 (<CJK Ideograph>)
 7082	0x8C7C	豼 (<CJK Ideograph>)
 7083	0x8C98	貘 (<CJK Ideograph>)
 7084	0x621D	戝 (<CJK Ideograph>)
 7085	0x8CAD	貭 (<CJK Ideograph>)
 7086	0x8CAA	貪 (<CJK Ideograph>)
 7087	0x8CBD	貽 (<CJK Ideograph>)
 7088	0x8CB2	貲 (<CJK Ideograph>)
 7089	0x8CB3	貳 (<CJK Ideograph>)
 7090	0x8CAE	貮 (<CJK Ideograph>)
 7091	0x8CB6	貶 (<CJK Ideograph>)
 7092	0x8CC8	賈 (<CJK Ideograph>)
 7093	0x8CC1	賁 (<CJK Ideograph>)
 7094	0x8CE4	賤 (<CJK Ideograph>)
 7095	0x8CE3	賣 (<CJK Ideograph>)
 7096	0x8CDA	賚 (<CJK Ideograph>)
 7097	0x8CFD	賽 (<CJK Ideograph>)
 7098	0x8CFA	賺 (<CJK Ideograph>)
 7099	0x8CFB	賻 (<CJK Ideograph>)
 7100	0x8D04	贄 (<CJK Ideograph>)
 7101	0x8D05	贅 (<CJK Ideograph>)
 7102	0x8D0A	贊 (<CJK Ideograph>)
 7103	0x8D07	贇 (<CJK Ideograph>)
 7104	0x8D0F	贏 (<CJK Ideograph>)
 7105	0x8D0D	贍 (<CJK Ideograph>)
 7106	0x8D10	贐 (<CJK Ideograph>)
 7107	0x9F4E	齎 (<CJK Ideograph>)
 7108	0x8D13	贓 (<CJK Ideograph>)
 7109	0x8CCD	賍 (<CJK Ideograph>)
 7110	0x8D14	贔 (<CJK Ideograph>)
 7111	0x8D16	贖 (<CJK Ideograph>)
 7112	0x8D67	赧 (<CJK Ideograph>)
 7113	0x8D6D	赭 (<CJK Ideograph>)
 7114	0x8D71	赱 (<CJK Ideograph>)
 7115	0x8D73	赳 (<CJK Ideograph>)
 7116	0x8D81	趁 (<CJK Ideograph>)
 7117	0x8D99	趙 (<CJK Ideograph>)
 7118	0x8DC2	跂 (<CJK Ideograph>)
 7119	0x8DBE	趾 (<CJK Ideograph>)
 7120	0x8DBA	趺 (<CJK Ideograph>)
 7121	0x8DCF	跏 (<CJK Ideograph>)
 7122	0x8DDA	跚 (<CJK Ideograph>)
 7123	0x8DD6	跖 (<CJK Ideograph>)
 7124	0x8DCC	跌 (<CJK Ideograph>)
 7125	0x8DDB	跛 (<CJK Ideograph>)
 7126	0x8DCB	跋 (<CJK Ideograph>)
 7127	0x8DEA	跪 (<CJK Ideograph>)
 7128	0x8DEB	跫 (<CJK Ideograph>)
 7129	0x8DDF	跟 (<CJK Ideograph>)
 7130	0x8DE3	跣 (<CJK Ideograph>)
 7131	0x8DFC	跼 (<CJK Ideograph>)
 7132	0x8E08	踈 (<CJK Ideograph>)
 7133	0x8E09	踉 (<CJK Ideograph>)
 7134	0x8DFF	跿 (<CJK Ideograph>)
 7135	0x8E1D	踝 (<CJK Ideograph>)
 7136	0x8E1E	踞 (<CJK Ideograph>)
 7137	0x8E10	踐 (<CJK Ideograph>)
 7138	0x8E1F	踟 (<CJK Ideograph>)
 7139	0x8E42	蹂 (<CJK Ideograph>)
 7140	0x8E35	踵 (<CJK Ideograph>)
 7141	0x8E30	踰 (<CJK Ideograph>)
 7142	0x8E34	踴 (<CJK Ideograph>)
 7143	0x8E4A	蹊 (<CJK Ideograph>)
"#

/-- encoding_tables/whatwg/index-jis0208.txt:6305-6492 -/
noncomputable def index38 : List Text := lines! r#" 7144	0x8E47	蹇 (<CJK Ideograph>)
 7145	0x8E49	蹉 (<CJK Ideograph>)
 7146	0x8E4C	蹌 (<CJK Ideograph>)
 7147	0x8E50	蹐 (<CJK Ideograph>)
 7148	0x8E48	蹈 (<CJK Ideograph>)
 7149	0x8E59	蹙 (<CJK Ideograph>)
 7150	0x8E64	蹤 (<CJK Ideograph>)
 7151	0x8E60	蹠 (<CJK Ideograph>)
 7152	0x8E2A	踪 (<CJK Ideograph>)
 7153	0x8E63	蹣 (<CJK Ideograph>)
 7154	0x8E55	蹕 (<CJK Ideograph>)
 7155	0x8E76	蹶 (<CJK Ideograph>)
 7156	0x8E72	蹲 (<CJK Ideograph>)
 7157	0x8E7C	蹼 (<CJK Ideograph>)
 7158	0x8E81	躁 (<CJK Ideograph>)
 7159	0x8E87	躇 (<CJK Ideograph>)
 7160	0x8E85	躅 (<CJK Ideograph>)
 7161	0x8E84	躄 (<CJK Ideograph>)
 7162	0x8E8B	躋 (<CJK Ideograph>)
 7163	0x8E8A	躊 (<CJK Ideograph>)
 7164	0x8E93	躓 (<CJK Ideograph>)
 7165	0x8E91	躑 (<CJK Ideograph>)
 7166	0x8E94	躔 (<CJK Ideograph>)
 7167	0x8E99	躙 (<CJK Ideograph>)
 7168	0x8EAA	躪 (<CJK Ideograph>)
 7169	0x8EA1	躡 (<CJK Ideograph>)
 7170	0x8EAC	躬 (<CJK Ideograph>)
 7171	0x8EB0	躰 (<CJK Ideograph>)
 7172	0x8EC6	軆 (<CJK Ideograph>)
 7173	0x8EB1	躱 (<CJK Ideograph>)
 7174	0x8EBE	躾 (<CJK Ideograph>)
 7175	0x8EC5	軅 (<CJK Ideograph>)
 7176	0x8EC8	軈 (<CJK Ideograph>)
 7177	0x8ECB	軋 (<CJK Ideograph>)
 7178	0x8EDB	軛 (<CJK Ideograph>)
 7179	0x8EE3	軣 (<CJK Ideograph>)
 7180	0x8EFC	軼 (<CJK Ideograph>)
 7181	0x8EFB	軻 (<CJK Ideograph>)
 7182	0x8EEB	軫 (<CJK Ideograph>)
 7183	0x8EFE	軾 (<CJK Ideograph>)
 7184	0x8F0A	輊 (<CJK Ideograph>)
 7185	0x8F05	輅 (<CJK Ideograph>)
 7186	0x8F15	輕 (<CJK Ideograph>)
 7187	0x8F12	輒 (<CJK Ideograph>)
 7188	0x8F19	輙 (<CJK Ideograph>)
 7189	0x8F13	輓 (<CJK Ideograph>)
 7190	0x8F1C	輜 (<CJK Ideograph>)
 7191	0x8F1F	輟 (<CJK Ideograph>)
 7192	0x8F1B	輛 (<CJK Ideograph>)
 7193	0x8F0C	輌 (<CJK Ideograph>)
 7194	0x8F26	輦 (<CJK Ideograph>)
 7195	0x8F33	輳 (<CJK Ideograph>)
 7196	0x8F3B	輻 (<CJK Ideograph>)
 7197	0x8F39	輹 (<CJK Ideograph>)
 7198	0x8F45	轅 (<CJK Ideograph>)
 7199	0x8F42	轂 (<CJK Ideograph>)
 7200	0x8F3E	輾 (<CJK Ideograph>)
 7201	0x8F4C	轌 (<CJK Ideograph>)
 7202	0x8F49	轉 (<CJK Ideograph>)
 7203	0x8F46	轆 (<CJK Ideograph>)
 7204	0x8F4E	轎 (<CJK Ideograph>)
 7205	0x8F57	轗 (<CJK Ideograph>)
 7206	0x8F5C	轜 (<CJK Ideograph>)
 7207	0x8F62	轢 (<CJK Ideograph>)
 7208	0x8F63	轣 (<CJK Ideograph>)
 7209	0x8F64	轤 (<CJK Ideograph>)
 7210	0x8F9C	辜 (<CJK Ideograph>)
 7211	0x8F9F	辟 (<CJK Ideograph>)
 7212	0x8FA3	辣 (<CJK Ideograph>)
 7213	0x8FAD	辭 (<CJK Ideograph>)
 7214	0x8FAF	辯 (<CJK Ideograph>)
 7215	0x8FB7	辷 (<CJK Ideograph>)
 7216	0x8FDA	迚 (<CJK Ideograph>)
 7217	0x8FE5	迥 (<CJK Ideograph>)
 7218	0x8FE2	迢 (<CJK Ideograph>)
 7219	0x8FEA	迪 (<CJK Ideograph>)
 7220	0x8FEF	迯 (<CJK Ideograph>)
 7221	0x9087	邇 (<CJK Ideograph>)
 7222	0x8FF4	迴 (<CJK Ideograph>)
 7223	0x9005	逅 (<CJK Ideograph>)
 7224	0x8FF9	迹 (<CJK Ideograph>)
 7225	0x8FFA	迺 (<CJK Ideograph>)
 7226	0x9011	逑 (<CJK Ideograph>)
 7227	0x9015	逕 (<CJK Ideograph>)
 7228	0x9021	逡 (<CJK Ideograph>)
 7229	0x900D	逍 (<CJK Ideograph>)
 7230	0x901E	逞 (<CJK Ideograph>)
 7231	0x9016	逖 (<CJK Ideograph>)
 7232	0x900B	逋 (<CJK Ideograph>)
 7233	0x9027	逧 (<CJK Ideograph>)
 7234	0x9036	逶 (<CJK Ideograph>)
 7235	0x9035	逵 (<CJK Ideograph>)
 7236	0x9039	逹 (<CJK Ideograph>)
 7237	0x8FF8	迸 (<CJK Ideograph>)
 7238	0x904F	遏 (<CJK Ideograph>)
 7239	0x9050	遐 (<CJK Ideograph>)
 7240	0x9051	遑 (<CJK Ideograph>)
 7241	0x9052	遒 (<CJK Ideograph>)
 7242	0x900E	逎 (<CJK Ideograph>)
 7243	0x9049	遉 (<CJK Ideograph>)
 7244	0x903E	逾 (<CJK Ideograph>)
 7245	0x9056	遖 (<CJK Ideograph>)
 7246	0x9058	遘 (<CJK Ideograph>)
 7247	0x905E	遞 (<CJK Ideograph>)
 7248	0x9068	遨 (<CJK Ideograph>)
 7249	0x906F	遯 (<CJK Ideograph>)
 7250	0x9076	遶 (<CJK Ideograph>)
 7251	0x96A8	隨 (<CJK Ideograph>)
 7252	0x9072	遲 (<CJK Ideograph>)
 7253	0x9082	邂 (<CJK Ideograph>)
 7254	0x907D	遽 (<CJK Ideograph>)
 7255	0x9081	邁 (<CJK Ideograph>)
 7256	0x9080	邀 (<CJK Ideograph>)
 7257	0x908A	邊 (<CJK Ideograph>)
 7258	0x9089	邉 (<CJK Ideograph>)
 7259	0x908F	邏 (<CJK Ideograph>)
 7260	0x90A8	邨 (<CJK Ideograph>)
 7261	0x90AF	邯 (<CJK Ideograph>)
 7262	0x90B1	邱 (<CJK Ideograph>)
 7263	0x90B5	邵 (<CJK Ideograph>)
 7264	0x90E2	郢 (<CJK Ideograph>)
 7265	0x90E4	郤 (<CJK Ideograph>)
 7266	0x6248	扈 (<CJK Ideograph>)
 7267	0x90DB	郛 (<CJK Ideograph>)
 7268	0x9102	鄂 (<CJK Ideograph>)
 7269	0x9112	鄒 (<CJK Ideograph>)
 7270	0x9119	鄙 (<CJK Ideograph>)
 7271	0x9132	鄲 (<CJK Ideograph>)
 7272	0x9130	鄰 (<CJK Ideograph>)
 7273	0x914A	酊 (<CJK Ideograph>)
 7274	0x9156	酖 (<CJK Ideograph>)
 7275	0x9158	酘 (<CJK Ideograph>)
 7276	0x9163	酣 (<CJK Ideograph>)
 7277	0x9165	酥 (<CJK Ideograph>)
 7278	0x9169	酩 (<CJK Ideograph>)
 7279	0x9173	酳 (<CJK Ideograph>)
 7280	0x9172	酲 (<CJK Ideograph>)
 7281	0x918B	醋 (<CJK Ideograph>)
 7282	0x9189	醉 (<CJK Ideograph>)
 7283	0x9182	醂 (<CJK Ideograph>)
 7284	0x91A2	醢 (<CJK Ideograph>)
 7285	0x91AB	醫 (<CJK Ideograph>)
 7286	0x91AF	醯 (<CJK Ideograph>)
 7287	0x91AA	醪 (<CJK Ideograph>)
 7288	0x91B5	醵 (<CJK Ideograph>)
 7289	0x91B4	醴 (<CJK Ideograph>)
 7290	0x91BA	醺 (<CJK Ideograph>)
 7291	0x91C0	釀 (<CJK Ideograph>)
 7292	0x91C1	釁 (<CJK Ideograph>)
 7293	0x91C9	釉 (<CJK Ideograph>)
 7294	0x91CB	釋 (<CJK Ideograph>)
 7295	0x91D0	釐 (<CJK Ideograph>)
 7296	0x91D6	釖 (<CJK Ideograph>)
 7297	0x91DF	釟 (<CJK Ideograph>)
 7298	0x91E1	釡 (<CJK Ideograph>)
 7299	0x91DB	釛 (<CJK Ideograph>)
 7300	0x91FC	釼 (<CJK Ideograph>)
 7301	0x91F5	釵 (<CJK Ideograph>)
 7302	0x91F6	釶 (<CJK Ideograph>)
 7303	0x921E	鈞 (<CJK Ideograph>)
 7304	0x91FF	釿 (<CJK Ideograph>)
 7305	0x9214	鈔 (<CJK Ideograph>)
 7306	0x922C	鈬 (<CJK Ideograph>)
 7307	0x9215	鈕 (<CJK Ideograph>)
 7308	0x9211	鈑 (<CJK Ideograph>)
 7309	0x925E	鉞 (<CJK Ideograph>)
 7310	0x9257	鉗 (<CJK Ideograph>)
 7311	0x9245	鉅 (<CJK Ideograph>)
 7312	0x9249	鉉 (<CJK Ideograph>)
 7313	0x9264	鉤 (<CJK Ideograph>)
 7314	0x9248	鉈 (<CJK Ideograph>)
 7315	0x9295	銕 (<CJK Ideograph>)
 7316	0x923F	鈿 (<CJK Ideograph>)
 7317	0x924B	鉋 (<CJK Ideograph>)
 7318	0x9250	鉐 (<CJK Ideograph>)
 7319	0x929C	銜 (<CJK Ideograph>)
 7320	0x9296	銖 (<CJK Ideograph>)
 7321	0x9293	銓 (<CJK Ideograph>)
 7322	0x929B	銛 (<CJK Ideograph>)
 7323	0x925A	鉚 (<CJK Ideograph>)
 7324	0x92CF	鋏 (<CJK Ideograph>)
 7325	0x92B9	銹 (<CJK Ideograph>)
 7326	0x92B7	銷 (<CJK Ideograph>)
 7327	0x92E9	鋩 (<CJK Ideograph>)
 7328	0x930F	錏 (<CJK Ideograph>)
 7329	0x92FA	鋺 (<CJK Ideograph>)
 7330	0x9344	鍄 (<CJK Ideograph>)
 7331	0x932E	錮 (<CJK Ideograph>)
"#

/-- encoding_tables/whatwg/index-jis0208.txt:6493-6680 -/
noncomputable def index39 : List Text := lines! r#" 7332	0x9319	錙 (<CJK Ideograph>)
 7333	0x9322	錢 (<CJK Ideograph>)
 7334	0x931A	錚 (<CJK Ideograph>)
 7335	0x9323	錣 (<CJK Ideograph>)
 7336	0x933A	錺 (<CJK Ideograph>)
 7337	0x9335	錵 (<CJK Ideograph>)
 7338	0x933B	錻 (<CJK Ideograph>)
 7339	0x935C	鍜 (<CJK Ideograph>)
 7340	0x9360	鍠 (<CJK Ideograph>)
 7341	0x937C	鍼 (<CJK Ideograph>)
 7342	0x936E	鍮 (<CJK Ideograph>)
 7343	0x9356	鍖 (<CJK Ideograph>)
 7344	0x93B0	鎰 (<CJK Ideograph>)
 7345	0x93AC	鎬 (<CJK Ideograph>)
 7346	0x93AD	鎭 (<CJK Ideograph>)
 7347	0x9394	鎔 (<CJK Ideograph>)
 7348	0x93B9	鎹 (<CJK Ideograph>)
 7349	0x93D6	鏖 (<CJK Ideograph>)
 7350	0x93D7	鏗 (<CJK Ideograph>)
 7351	0x93E8	鏨 (<CJK Ideograph>)
 7352	0x93E5	鏥 (<CJK Ideograph>)
 7353	0x93D8	鏘 (<CJK Ideograph>)
 7354	0x93C3	鏃 (<CJK Ideograph>)
 7355	0x93DD	鏝 (<CJK Ideograph>)
 7356	0x93D0	鏐 (<CJK Ideograph>)
 7357	0x93C8	鏈 (<CJK Ideograph>)
 7358	0x93E4	鏤 (<CJK Ideograph>)
 7359	0x941A	鐚 (<CJK Ideograph>)
 7360	0x9414	鐔 (<CJK Ideograph>)
 7361	0x9413	鐓 (<CJK Ideograph>)
 7362	0x9403	鐃 (<CJK Ideograph>)
 7363	0x9407	鐇 (<CJK Ideograph>)
 7364	0x9410	鐐 (<CJK Ideograph>)
 7365	0x9436	鐶 (<CJK Ideograph>)
 7366	0x942B	鐫 (<CJK Ideograph>)
 7367	0x9435	鐵 (<CJK Ideograph>)
 7368	0x9421	鐡 (<CJK Ideograph>)
 7369	0x943A	鐺 (<CJK Ideograph>)
 7370	0x9441	鑁 (<CJK Ideograph>)
 7371	0x9452	鑒 (<CJK Ideograph>)
 7372	0x9444	鑄 (<CJK Ideograph>)
 7373	0x945B	鑛 (<CJK Ideograph>)
 7374	0x9460	鑠 (<CJK Ideograph>)
 7375	0x9462	鑢 (<CJK Ideograph>)
 7376	0x945E	鑞 (<CJK Ideograph>)
 7377	0x946A	鑪 (<CJK Ideograph>)
 7378	0x9229	鈩 (<CJK Ideograph>)
 7379	0x9470	鑰 (<CJK Ideograph>)
 7380	0x9475	鑵 (<CJK Ideograph>)
 7381	0x9477	鑷 (<CJK Ideograph>)
 7382	0x947D	鑽 (<CJK Ideograph>)
 7383	0x945A	鑚 (<CJK Ideograph>)
 7384	0x947C	鑼 (<CJK Ideograph>)
 7385	0x947E	鑾 (<CJK Ideograph>)
 7386	0x9481	钁 (<CJK Ideograph>)
 7387	0x947F	鑿 (<CJK Ideograph>)
 7388	0x9582	閂 (<CJK Ideograph>)
 7389	0x9587	閇 (<CJK Ideograph>)
 7390	0x958A	閊 (<CJK Ideograph>)
 7391	0x9594	閔 (<CJK Ideograph>)
 7392	0x9596	閖 (<CJK Ideograph>)
 7393	0x9598	閘 (<CJK Ideograph>)
 7394	0x9599	閙 (<CJK Ideograph>)
 7395	0x95A0	閠 (<CJK Ideograph>)
 7396	0x95A8	閨 (<CJK Ideograph>)
 7397	0x95A7	閧 (<CJK Ideograph>)
 7398	0x95AD	閭 (<CJK Ideograph>)
 7399	0x95BC	閼 (<CJK Ideograph>)
 7400	0x95BB	閻 (<CJK Ideograph>)
 7401	0x95B9	閹 (<CJK Ideograph>)
 7402	0x95BE	閾 (<CJK Ideograph>)
 7403	0x95CA	闊 (<CJK Ideograph>)
 7404	0x6FF6	濶 (<CJK Ideograph>)
 7405	0x95C3	闃 (<CJK Ideograph>)
 7406	0x95CD	闍 (<CJK Ideograph>)
 7407	0x95CC	闌 (<CJK Ideograph>)
 7408	0x95D5	闕 (<CJK Ideograph>)
 7409	0x95D4	闔 (<CJK Ideograph>)
 7410	0x95D6	闖 (<CJK Ideograph>)
 7411	0x95DC	關 (<CJK Ideograph>)
 7412	0x95E1	闡 (<CJK Ideograph>)
 7413	0x95E5	闥 (<CJK Ideograph>)
 7414	0x95E2	闢 (<CJK Ideograph>)
 7415	0x9621	阡 (<CJK Ideograph>)
 7416	0x9628	阨 (<CJK Ideograph>)
 7417	0x962E	阮 (<CJK Ideograph>)
 7418	0x962F	阯 (<CJK Ideograph>)
 7419	0x9642	陂 (<CJK Ideograph>)
 7420	0x964C	陌 (<CJK Ideograph>)
 7421	0x964F	陏 (<CJK Ideograph>)
 7422	0x964B	陋 (<CJK Ideograph>)
 7423	0x9677	陷 (<CJK Ideograph>)
 7424	0x965C	陜 (<CJK Ideograph>)
 7425	0x965E	陞 (<CJK Ideograph>)
 7426	0x965D	陝 (<CJK Ideograph>)
 7427	0x965F	陟 (<CJK Ideograph>)
 7428	0x9666	陦 (<CJK Ideograph>)
 7429	0x9672	陲 (<CJK Ideograph>)
 7430	0x966C	陬 (<CJK Ideograph>)
 7431	0x968D	隍 (<CJK Ideograph>)
 7432	0x9698	隘 (<CJK Ideograph>)
 7433	0x9695	隕 (<CJK Ideograph>)
 7434	0x9697	隗 (<CJK Ideograph>)
 7435	0x96AA	險 (<CJK Ideograph>)
 7436	0x96A7	隧 (<CJK Ideograph>)
 7437	0x96B1	隱 (<CJK Ideograph>)
 7438	0x96B2	隲 (<CJK Ideograph>)
 7439	0x96B0	隰 (<CJK Ideograph>)
 7440	0x96B4	隴 (<CJK Ideograph>)
 7441	0x96B6	隶 (<CJK Ideograph>)
 7442	0x96B8	隸 (<CJK Ideograph>)
 7443	0x96B9	隹 (<CJK Ideograph>)
 7444	0x96CE	雎 (<CJK Ideograph>)
 7445	0x96CB	雋 (<CJK Ideograph>)
 7446	0x96C9	雉 (<CJK Ideograph>)
 7447	0x96CD	雍 (<CJK Ideograph>)
 7448	0x894D	襍 (<CJK Ideograph>)
 7449	0x96DC	雜 (<CJK Ideograph>)
 7450	0x970D	霍 (<CJK Ideograph>)
 7451	0x96D5	雕 (<CJK Ideograph>)
 7452	0x96F9	雹 (<CJK Ideograph>)
 7453	0x9704	霄 (<CJK Ideograph>)
 7454	0x9706	霆 (<CJK Ideograph>)
 7455	0x9708	霈 (<CJK Ideograph>)
 7456	0x9713	霓 (<CJK Ideograph>)
 7457	0x970E	霎 (<CJK Ideograph>)
 7458	0x9711	霑 (<CJK Ideograph>)
 7459	0x970F	霏 (<CJK Ideograph>)
 7460	0x9716	霖 (<CJK Ideograph>)
 7461	0x9719	霙 (<CJK Ideograph>)
 7462	0x9724	霤 (<CJK Ideograph>)
 7463	0x972A	霪 (<CJK Ideograph>)
 7464	0x9730	霰 (<CJK Ideograph>)
 7465	0x9739	霹 (<CJK Ideograph>)
 7466	0x973D	霽 (<CJK Ideograph>)
 7467	0x973E	霾 (<CJK Ideograph>)
 7468	0x9744	靄 (<CJK Ideograph>)
 7469	0x9746	靆 (<CJK Ideograph>)
 7470	0x9748	靈 (<CJK Ideograph>)
 7471	0x9742	靂 (<CJK Ideograph>)
 7472	0x9749	靉 (<CJK Ideograph>)
 7473	0x975C	靜 (<CJK Ideograph>)
 7474	0x9760	靠 (<CJK Ideograph>)
 7475	0x9764	靤 (<CJK Ideograph>)
 7476	0x9766	靦 (<CJK Ideograph>)
 7477	0x9768	靨 (<CJK Ideograph>)
 7478	0x52D2	勒 (<CJK Ideograph>)
 7479	0x976B	靫 (<CJK Ideograph>)
 7480	0x9771	靱 (<CJK Ideograph>)
 7481	0x9779	靹 (<CJK Ideograph>)
 7482	0x9785	鞅 (<CJK Ideograph>)
 7483	0x977C	靼 (<CJK Ideograph>)
 7484	0x9781	鞁 (<CJK Ideograph>)
 7485	0x977A	靺 (<CJK Ideograph>)
 7486	0x9786	鞆 (<CJK Ideograph>)
 7487	0x978B	鞋 (<CJK Ideograph>)
 7488	0x978F	鞏 (<CJK Ideograph>)
 7489	0x9790	鞐 (<CJK Ideograph>)
 7490	0x979C	鞜 (<CJK Ideograph>)
 7491	0x97A8	鞨 (<CJK Ideograph>)
 7492	0x97A6	鞦 (<CJK Ideograph>)
 7493	0x97A3	鞣 (<CJK Ideograph>)
 7494	0x97B3	鞳 (<CJK Ideograph>)
 7495	0x97B4	鞴 (<CJK Ideograph>)
 7496	0x97C3	韃 (<CJK Ideograph>)
 7497	0x97C6	韆 (<CJK Ideograph>)
 7498	0x97C8	韈 (<CJK Ideograph>)
 7499	0x97CB	韋 (<CJK Ideograph>)
 7500	0x97DC	韜 (<CJK Ideograph>)
 7501	0x97ED	韭 (<CJK Ideograph>)
 7502	0x9F4F	齏 (<CJK Ideograph>)
 7503	0x97F2	韲 (<CJK Ideograph>)
 7504	0x7ADF	竟 (<CJK Ideograph>)
 7505	0x97F6	韶 (<CJK Ideograph>)
 7506	0x97F5	韵 (<CJK Ideograph>)
 7507	0x980F	頏 (<CJK Ideograph>)
 7508	0x980C	頌 (<CJK Ideograph>)
 7509	0x9838	頸 (<CJK Ideograph>)
 7510	0x9824	頤 (<CJK Ideograph>)
 7511	0x9821	頡 (<CJK Ideograph>)
 7512	0x9837	頷 (<CJK Ideograph>)
 7513	0x983D	頽 (<CJK Ideograph>)
 7514	0x9846	顆 (<CJK Ideograph>)
 7515	0x984F	顏 (<CJK Ideograph>)
 7516	0x984B	顋 (<CJK Ideograph>)
 7517	0x986B	顫 (<CJK Ideograph>)
 7518	0x986F	顯 (<CJK Ideograph>)
 7519	0x9870	顰 (<CJK Ideograph>)
"#

/-- encoding_tables/whatwg/index-jis0208.txt:6681-6868 -/
noncomputable def index40 : List Text := lines! r#" 7520	0x9871	顱 (<CJK Ideograph>)
 7521	0x9874	顴 (<CJK Ideograph>)
 7522	0x9873	顳 (<CJK Ideograph>)
 7523	0x98AA	颪 (<CJK Ideograph>)
 7524	0x98AF	颯 (<CJK Ideograph>)
 7525	0x98B1	颱 (<CJK Ideograph>)
 7526	0x98B6	颶 (<CJK Ideograph>)
 7527	0x98C4	飄 (<CJK Ideograph>)
 7528	0x98C3	飃 (<CJK Ideograph>)
 7529	0x98C6	飆 (<CJK Ideograph>)
 7530	0x98E9	飩 (<CJK Ideograph>)
 7531	0x98EB	飫 (<CJK Ideograph>)
 7532	0x9903	餃 (<CJK Ideograph>)
 7533	0x9909	餉 (<CJK Ideograph>)
 7534	0x9912	餒 (<CJK Ideograph>)
 7535	0x9914	餔 (<CJK Ideograph>)
 7536	0x9918	餘 (<CJK Ideograph>)
 7537	0x9921	餡 (<CJK Ideograph>)
 7538	0x991D	餝 (<CJK Ideograph>)
 7539	0x991E	餞 (<CJK Ideograph>)
 7540	0x9924	餤 (<CJK Ideograph>)
 7541	0x9920	餠 (<CJK Ideograph>)
 7542	0x992C	餬 (<CJK Ideograph>)
 7543	0x992E	餮 (<CJK Ideograph>)
 7544	0x993D	餽 (<CJK Ideograph>)
 7545	0x993E	餾 (<CJK Ideograph>)
 7546	0x9942	饂 (<CJK Ideograph>)
 7547	0x9949	饉 (<CJK Ideograph>)
 7548	0x9945	饅 (<CJK Ideograph>)
 7549	0x9950	饐 (<CJK Ideograph>)
 7550	0x994B	饋 (<CJK Ideograph>)
 7551	0x9951	饑 (<CJK Ideograph>)
 7552	0x9952	饒 (<CJK Ideograph>)
 7553	0x994C	饌 (<CJK Ideograph>)
 7554	0x9955	饕 (<CJK Ideograph>)
 7555	0x9997	馗 (<CJK Ideograph>)
 7556	0x9998	馘 (<CJK Ideograph>)
 7557	0x99A5	馥 (<CJK Ideograph>)
 7558	0x99AD	馭 (<CJK Ideograph>)
 7559	0x99AE	馮 (<CJK Ideograph>)
 7560	0x99BC	馼 (<CJK Ideograph>)
 7561	0x99DF	駟 (<CJK Ideograph>)
 7562	0x99DB	駛 (<CJK Ideograph>)
 7563	0x99DD	駝 (<CJK Ideograph>)
 7564	0x99D8	駘 (<CJK Ideograph>)
 7565	0x99D1	駑 (<CJK Ideograph>)
 7566	0x99ED	駭 (<CJK Ideograph>)
 7567	0x99EE	駮 (<CJK Ideograph>)
 7568	0x99F1	駱 (<CJK Ideograph>)
 7569	0x99F2	駲 (<CJK Ideograph>)
 7570	0x99FB	駻 (<CJK Ideograph>)
 7571	0x99F8	駸 (<CJK Ideograph>)
 7572	0x9A01	騁 (<CJK Ideograph>)
 7573	0x9A0F	騏 (<CJK Ideograph>)
 7574	0x9A05	騅 (<CJK Ideograph>)
 7575	0x99E2	駢 (<CJK Ideograph>)
 7576	0x9A19	騙 (<CJK Ideograph>)
 7577	0x9A2B	騫 (<CJK Ideograph>)
 7578	0x9A37	騷 (<CJK Ideograph>)
 7579	0x9A45	驅 (<CJK Ideograph>)
 7580	0x9A42	驂 (<CJK Ideograph>)
 7581	0x9A40	驀 (<CJK Ideograph>)
 7582	0x9A43	驃 (<CJK Ideograph>)
 7583	0x9A3E	騾 (<CJK Ideograph>)
 7584	0x9A55	驕 (<CJK Ideograph>)
 7585	0x9A4D	驍 (<CJK Ideograph>)
 7586	0x9A5B	驛 (<CJK Ideograph>)
 7587	0x9A57	驗 (<CJK Ideograph>)
 7588	0x9A5F	驟 (<CJK Ideograph>)
 7589	0x9A62	驢 (<CJK Ideograph>)
 7590	0x9A65	驥 (<CJK Ideograph>)
 7591	0x9A64	驤 (<CJK Ideograph>)
 7592	0x9A69	驩 (<CJK Ideograph>)
 7593	0x9A6B	驫 (<CJK Ideograph>)
 7594	0x9A6A	驪 (<CJK Ideograph>)
 7595	0x9AAD	骭 (<CJK Ideograph>)
 7596	0x9AB0	骰 (<CJK Ideograph>)
 7597	0x9ABC	骼 (<CJK Ideograph>)
 7598	0x9AC0	髀 (<CJK Ideograph>)
 7599	0x9ACF	髏 (<CJK Ideograph>)
 7600	0x9AD1	髑 (<CJK Ideograph>)
 7601	0x9AD3	髓 (<CJK Ideograph>)
 7602	0x9AD4	體 (<CJK Ideograph>)
 7603	0x9ADE	髞 (<CJK Ideograph>)
 7604	0x9ADF	髟 (<CJK Ideograph>)
 7605	0x9AE2	髢 (<CJK Ideograph>)
 7606	0x9AE3	髣 (<CJK Ideograph>)
 7607	0x9AE6	髦 (<CJK Ideograph>)
 7608	0x9AEF	髯 (<CJK Ideograph>)
 7609	0x9AEB	髫 (<CJK Ideograph>)
 7610	0x9AEE	髮 (<CJK Ideograph>)
 7611	0x9AF4	髴 (<CJK Ideograph>)
 7612	0x9AF1	髱 (<CJK Ideograph>)
 7613	0x9AF7	髷 (<CJK Ideograph>)
 7614	0x9AFB	髻 (<CJK Ideograph>)
 7615	0x9B06	鬆 (<CJK Ideograph>)
 7616	0x9B18	鬘 (<CJK Ideograph>)
 7617	0x9B1A	鬚 (<CJK Ideograph>)
 7618	0x9B1F	鬟 (<CJK Ideograph>)
 7619	0x9B22	鬢 (<CJK Ideograph>)
 7620	0x9B23	鬣 (<CJK Ideograph>)
 7621	0x9B25	鬥 (<CJK Ideograph>)
 7622	0x9B27	鬧 (<CJK Ideograph>)
 7623	0x9B28	鬨 (<CJK Ideograph>)
 7624	0x9B29	鬩 (<CJK Ideograph>)
 7625	0x9B2A	鬪 (<CJK Ideograph>)
 7626	0x9B2E	鬮 (<CJK Ideograph>)
 7627	0x9B2F	鬯 (<CJK Ideograph>)
 7628	0x9B32	鬲 (<CJK Ideograph>)
 7629	0x9B44	魄 (<CJK Ideograph>)
 7630	0x9B43	魃 (<CJK Ideograph>)
 7631	0x9B4F	魏 (<CJK Ideograph>)
 7632	0x9B4D	魍 (<CJK Ideograph>)
 7633	0x9B4E	魎 (<CJK Ideograph>)
 7634	0x9B51	魑 (<CJK Ideograph>)
 7635	0x9B58	魘 (<CJK Ideograph>)
 7636	0x9B74	魴 (<CJK Ideograph>)
 7637	0x9B93	鮓 (<CJK Ideograph>)
 7638	0x9B83	鮃 (<CJK Ideograph>)
 7639	0x9B91	鮑 (<CJK Ideograph>)
 7640	0x9B96	鮖 (<CJK Ideograph>)
 7641	0x9B97	鮗 (<CJK Ideograph>)
 7642	0x9B9F	鮟 (<CJK Ideograph>)
 7643	0x9BA0	鮠 (<CJK Ideograph>)
 7644	0x9BA8	鮨 (<CJK Ideograph>)
 7645	0x9BB4	鮴 (<CJK Ideograph>)
 7646	0x9BC0	鯀 (<CJK Ideograph>)
 7647	0x9BCA	鯊 (<CJK Ideograph>)
 7648	0x9BB9	鮹 (<CJK Ideograph>)
 7649	0x9BC6	鯆 (<CJK Ideograph>)
 7650	0x9BCF	鯏 (<CJK Ideograph>)
 7651	0x9BD1	鯑 (<CJK Ideograph>)
 7652	0x9BD2	鯒 (<CJK Ideograph>)
 7653	0x9BE3	鯣 (<CJK Ideograph>)
 7654	0x9BE2	鯢 (<CJK Ideograph>)
 7655	0x9BE4	鯤 (<CJK Ideograph>)
 7656	0x9BD4	鯔 (<CJK Ideograph>)
 7657	0x9BE1	鯡 (<CJK Ideograph>)
 7658	0x9C3A	鰺 (<CJK Ideograph>)
 7659	0x9BF2	鯲 (<CJK Ideograph>)
 7660	0x9BF1	鯱 (<CJK Ideograph>)
 7661	0x9BF0	鯰 (<CJK Ideograph>)
 7662	0x9C15	鰕 (<CJK Ideograph>)
 7663	0x9C14	鰔 (<CJK Ideograph>)
 7664	0x9C09	鰉 (<CJK Ideograph>)
 7665	0x9C13	鰓 (<CJK Ideograph>)
 7666	0x9C0C	鰌 (<CJK Ideograph>)
 7667	0x9C06	鰆 (<CJK Ideograph>)
 7668	0x9C08	鰈 (<CJK Ideograph>)
 7669	0x9C12	鰒 (<CJK Ideograph>)
 7670	0x9C0A	鰊 (<CJK Ideograph>)
 7671	0x9C04	鰄 (<CJK Ideograph>)
 7672	0x9C2E	鰮 (<CJK Ideograph>)
 7673	0x9C1B	鰛 (<CJK Ideograph>)
 7674	0x9C25	鰥 (<CJK Ideograph>)
 7675	0x9C24	鰤 (<CJK Ideograph>)
 7676	0x9C21	鰡 (<CJK Ideograph>)
 7677	0x9C30	鰰 (<CJK Ideograph>)
 7678	0x9C47	鱇 (<CJK Ideograph>)
 7679	0x9C32	鰲 (<CJK Ideograph>)
 7680	0x9C46	鱆 (<CJK Ideograph>)
 7681	0x9C3E	鰾 (<CJK Ideograph>)
 7682	0x9C5A	鱚 (<CJK Ideograph>)
 7683	0x9C60	鱠 (<CJK Ideograph>)
 7684	0x9C67	鱧 (<CJK Ideograph>)
 7685	0x9C76	鱶 (<CJK Ideograph>)
 7686	0x9C78	鱸 (<CJK Ideograph>)
 7687	0x9CE7	鳧 (<CJK Ideograph>)
 7688	0x9CEC	鳬 (<CJK Ideograph>)
 7689	0x9CF0	鳰 (<CJK Ideograph>)
 7690	0x9D09	鴉 (<CJK Ideograph>)
 7691	0x9D08	鴈 (<CJK Ideograph>)
 7692	0x9CEB	鳫 (<CJK Ideograph>)
 7693	0x9D03	鴃 (<CJK Ideograph>)
 7694	0x9D06	鴆 (<CJK Ideograph>)
 7695	0x9D2A	鴪 (<CJK Ideograph>)
 7696	0x9D26	鴦 (<CJK Ideograph>)
 7697	0x9DAF	鶯 (<CJK Ideograph>)
 7698	0x9D23	鴣 (<CJK Ideograph>)
 7699	0x9D1F	鴟 (<CJK Ideograph>)
 7700	0x9D44	鵄 (<CJK Ideograph>)
 7701	0x9D15	鴕 (<CJK Ideograph>)
 7702	0x9D12	鴒 (<CJK Ideograph>)
 7703	0x9D41	鵁 (<CJK Ideograph>)
 7704	0x9D3F	鴿 (<CJK Ideograph>)
 7705	0x9D3E	鴾 (<CJK Ideograph>)
 7706	0x9D46	鵆 (<CJK Ideograph>)
 7707	0x9D48	鵈 (<CJK Ideograph>)
"#

/-- encoding_tables/whatwg/index-jis0208.txt:6869-6968 -/
noncomputable def index41 : List Text := lines! r#" 7708	0x9D5D	鵝 (<CJK Ideograph>)
 7709	0x9D5E	鵞 (<CJK Ideograph>)
 7710	0x9D64	鵤 (<CJK Ideograph>)
 7711	0x9D51	鵑 (<CJK Ideograph>)
 7712	0x9D50	鵐 (<CJK Ideograph>)
 7713	0x9D59	鵙 (<CJK Ideograph>)
 7714	0x9D72	鵲 (<CJK Ideograph>)
 7715	0x9D89	鶉 (<CJK Ideograph>)
 7716	0x9D87	鶇 (<CJK Ideograph>)
 7717	0x9DAB	鶫 (<CJK Ideograph>)
 7718	0x9D6F	鵯 (<CJK Ideograph>)
 7719	0x9D7A	鵺 (<CJK Ideograph>)
 7720	0x9D9A	鶚 (<CJK Ideograph>)
 7721	0x9DA4	鶤 (<CJK Ideograph>)
 7722	0x9DA9	鶩 (<CJK Ideograph>)
 7723	0x9DB2	鶲 (<CJK Ideograph>)
 7724	0x9DC4	鷄 (<CJK Ideograph>)
 7725	0x9DC1	鷁 (<CJK Ideograph>)
 7726	0x9DBB	鶻 (<CJK Ideograph>)
 7727	0x9DB8	鶸 (<CJK Ideograph>)
 7728	0x9DBA	鶺 (<CJK Ideograph>)
 7729	0x9DC6	鷆 (<CJK Ideograph>)
 7730	0x9DCF	鷏 (<CJK Ideograph>)
 7731	0x9DC2	鷂 (<CJK Ideograph>)
 7732	0x9DD9	鷙 (<CJK Ideograph>)
 7733	0x9DD3	鷓 (<CJK Ideograph>)
 7734	0x9DF8	鷸 (<CJK Ideograph>)
 7735	0x9DE6	鷦 (<CJK Ideograph>)
 7736	0x9DED	鷭 (<CJK Ideograph>)
 7737	0x9DEF	鷯 (<CJK Ideograph>)
 7738	0x9DFD	鷽 (<CJK Ideograph>)
 7739	0x9E1A	鸚 (<CJK Ideograph>)
 7740	0x9E1B	鸛 (<CJK Ideograph>)
 7741	0x9E1E	鸞 (<CJK Ideograph>)
 7742	0x9E75	鹵 (<CJK Ideograph>)
 7743	0x9E79	鹹 (<CJK Ideograph>)
 7744	0x9E7D	鹽 (<CJK Ideograph>)
 7745	0x9E81	麁 (<CJK Ideograph>)
 7746	0x9E88	麈 (<CJK Ideograph>)
 7747	0x9E8B	麋 (<CJK Ideograph>)
 7748	0x9E8C	麌 (<CJK Ideograph>)
 7749	0x9E92	麒 (<CJK Ideograph>)
 7750	0x9E95	麕 (<CJK Ideograph>)
 7751	0x9E91	麑 (<CJK Ideograph>)
 7752	0x9E9D	麝 (<CJK Ideograph>)
 7753	0x9EA5	麥 (<CJK Ideograph>)
 7754	0x9EA9	麩 (<CJK Ideograph>)
 7755	0x9EB8	麸 (<CJK Ideograph>)
 7756	0x9EAA	麪 (<CJK Ideograph>)
 7757	0x9EAD	麭 (<CJK Ideograph>)
 7758	0x9761	靡 (<CJK Ideograph>)
 7759	0x9ECC	黌 (<CJK Ideograph>)
 7760	0x9ECE	黎 (<CJK Ideograph>)
 7761	0x9ECF	黏 (<CJK Ideograph>)
 7762	0x9ED0	黐 (<CJK Ideograph>)
 7763	0x9ED4	黔 (<CJK Ideograph>)
 7764	0x9EDC	黜 (<CJK Ideograph>)
 7765	0x9EDE	點 (<CJK Ideograph>)
 7766	0x9EDD	黝 (<CJK Ideograph>)
 7767	0x9EE0	黠 (<CJK Ideograph>)
 7768	0x9EE5	黥 (<CJK Ideograph>)
 7769	0x9EE8	黨 (<CJK Ideograph>)
 7770	0x9EEF	黯 (<CJK Ideograph>)
 7771	0x9EF4	黴 (<CJK Ideograph>)
 7772	0x9EF6	黶 (<CJK Ideograph>)
 7773	0x9EF7	黷 (<CJK Ideograph>)
 7774	0x9EF9	黹 (<CJK Ideograph>)
 7775	0x9EFB	黻 (<CJK Ideograph>)
 7776	0x9EFC	黼 (<CJK Ideograph>)
 7777	0x9EFD	黽 (<CJK Ideograph>)
 7778	0x9F07	鼇 (<CJK Ideograph>)
 7779	0x9F08	鼈 (<CJK Ideograph>)
 7780	0x76B7	皷 (<CJK Ideograph>)
 7781	0x9F15	鼕 (<CJK Ideograph>)
 7782	0x9F21	鼡 (<CJK Ideograph>)
 7783	0x9F2C	鼬 (<CJK Ideograph>)
 7784	0x9F3E	鼾 (<CJK Ideograph>)
 7785	0x9F4A	齊 (<CJK Ideograph>)
 7786	0x9F52	齒 (<CJK Ideograph>)
 7787	0x9F54	齔 (<CJK Ideograph>)
 7788	0x9F63	齣 (<CJK Ideograph>)
 7789	0x9F5F	齟 (<CJK Ideograph>)
 7790	0x9F60	齠 (<CJK Ideograph>)
 7791	0x9F61	齡 (<CJK Ideograph>)
 7792	0x9F66	齦 (<CJK Ideograph>)
 7793	0x9F67	齧 (<CJK Ideograph>)
 7794	0x9F6C	齬 (<CJK Ideograph>)
 7795	0x9F6A	齪 (<CJK Ideograph>)
 7796	0x9F77	齷 (<CJK Ideograph>)
 7797	0x9F72	齲 (<CJK Ideograph>)
 7798	0x9F76	齶 (<CJK Ideograph>)
 7799	0x9F95	龕 (<CJK Ideograph>)
 7800	0x9F9C	龜 (<CJK Ideograph>)
 7801	0x9FA0	龠 (<CJK Ideograph>)
 7802	0x582F	堯 (<CJK Ideograph>)
 7803	0x69C7	槇 (<CJK Ideograph>)
 7804	0x9059	遙 (<CJK Ideograph>)
 7805	0x7464	瑤 (<CJK Ideograph>)
 7806	0x51DC	凜 (<CJK Ideograph>)
 7807	0x7199	熙 (<CJK Ideograph>)
"#

/-- encoding_tables/whatwg/index-jis0208.txt (no line) -/
noncomputable def index42 : List Text := []

/-- encoding_tables/whatwg/index-jis0208.txt (no line) -/
noncomputable def index43 : List Text := []

/-- encoding_tables/whatwg/index-jis0208.txt:6969-7156 -/
noncomputable def index44 : List Text := lines! r#" 8272	0x7E8A	纊 (<CJK Ideograph>)
 8273	0x891C	褜 (<CJK Ideograph>)
 8274	0x9348	鍈 (<CJK Ideograph>)
 8275	0x9288	銈 (<CJK Ideograph>)
 8276	0x84DC	蓜 (<CJK Ideograph>)
 8277	0x4FC9	俉 (<CJK Ideograph>)
 8278	0x70BB	炻 (<CJK Ideograph>)
 8279	0x6631	昱 (<CJK Ideograph>)
 8280	0x68C8	棈 (<CJK Ideograph>)
 8281	0x92F9	鋹 (<CJK Ideograph>)
 8282	0x66FB	曻 (<CJK Ideograph>)
 8283	0x5F45	彅 (<CJK Ideograph>)
 8284	0x4E28	丨 (<CJK Ideograph>)
 8285	0x4EE1	仡 (<CJK Ideograph>)
 8286	0x4EFC	仼 (<CJK Ideograph>)
 8287	0x4F00	伀 (<CJK Ideograph>)
 8288	0x4F03	伃 (<CJK Ideograph>)
 8289	0x4F39	伹 (<CJK Ideograph>)
 8290	0x4F56	佖 (<CJK Ideograph>)
 8291	0x4F92	侒 (<CJK Ideograph>)
 8292	0x4F8A	侊 (<CJK Ideograph>)
 8293	0x4F9A	侚 (<CJK Ideograph>)
 8294	0x4F94	侔 (<CJK Ideograph>)
 8295	0x4FCD	俍 (<CJK Ideograph>)
 8296	0x5040	偀 (<CJK Ideograph>)
 8297	0x5022	倢 (<CJK Ideograph>)
 8298	0x4FFF	俿 (<CJK Ideograph>)
 8299	0x501E	倞 (<CJK Ideograph>)
 8300	0x5046	偆 (<CJK Ideograph>)
 8301	0x5070	偰 (<CJK Ideograph>)
 8302	0x5042	偂 (<CJK Ideograph>)
 8303	0x5094	傔 (<CJK Ideograph>)
 8304	0x50F4	僴 (<CJK Ideograph>)
 8305	0x50D8	僘 (<CJK Ideograph>)
 8306	0x514A	兊 (<CJK Ideograph>)
 8307	0x5164	兤 (<CJK Ideograph>)
 8308	0x519D	冝 (<CJK Ideograph>)
 8309	0x51BE	冾 (<CJK Ideograph>)
 8310	0x51EC	凬 (<CJK Ideograph>)
 8311	0x5215	刕 (<CJK Ideograph>)
 8312	0x529C	劜 (<CJK Ideograph>)
 8313	0x52A6	劦 (<CJK Ideograph>)
 8314	0x52C0	勀 (<CJK Ideograph>)
 8315	0x52DB	勛 (<CJK Ideograph>)
 8316	0x5300	匀 (<CJK Ideograph>)
 8317	0x5307	匇 (<CJK Ideograph>)
 8318	0x5324	匤 (<CJK Ideograph>)
 8319	0x5372	卲 (<CJK Ideograph>)
 8320	0x5393	厓 (<CJK Ideograph>)
 8321	0x53B2	厲 (<CJK Ideograph>)
 8322	0x53DD	叝 (<CJK Ideograph>)
 8323	0xFA0E	﨎 (CJK COMPATIBILITY IDEOGRAPH-FA0E)
 8324	0x549C	咜 (<CJK Ideograph>)
 8325	0x548A	咊 (<CJK Ideograph>)
 8326	0x54A9	咩 (<CJK Ideograph>)
 8327	0x54FF	哿 (<CJK Ideograph>)
 8328	0x5586	喆 (<CJK Ideograph>)
 8329	0x5759	坙 (<CJK Ideograph>)
 8330	0x5765	坥 (<CJK Ideograph>)
 8331	0x57AC	垬 (<CJK Ideograph>)
 8332	0x57C8	埈 (<CJK Ideograph>)
 8333	0x57C7	埇 (<CJK Ideograph>)
 8334	0xFA0F	﨏 (CJK COMPATIBILITY IDEOGRAPH-FA0F)
 8335	0xFA10	塚 (CJK COMPATIBILITY IDEOGRAPH-FA10)
 8336	0x589E	增 (<CJK Ideograph>)
 8337	0x58B2	墲 (<CJK Ideograph>)
 8338	0x590B	夋 (<CJK Ideograph>)
 8339	0x5953	奓 (<CJK Ideograph>)
 8340	0x595B	奛 (<CJK Ideograph>)
 8341	0x595D	奝 (<CJK Ideograph>)
 8342	0x5963	奣 (<CJK Ideograph>)
 8343	0x59A4	妤 (<CJK Ideograph>)
 8344	0x59BA	妺 (<CJK Ideograph>)
 8345	0x5B56	孖 (<CJK Ideograph>)
 8346	0x5BC0	寀 (<CJK Ideograph>)
 8347	0x752F	甯 (<CJK Ideograph>)
 8348	0x5BD8	寘 (<CJK Ideograph>)
 8349	0x5BEC	寬 (<CJK Ideograph>)
 8350	0x5C1E	尞 (<CJK Ideograph>)
 8351	0x5CA6	岦 (<CJK Ideograph>)
 8352	0x5CBA	岺 (<CJK Ideograph>)
 8353	0x5CF5	峵 (<CJK Ideograph>)
 8354	0x5D27	崧 (<CJK Ideograph>)
 8355	0x5D53	嵓 (<CJK Ideograph>)
 8356	0xFA11	﨑 (CJK COMPATIBILITY IDEOGRAPH-FA11)
 8357	0x5D42	嵂 (<CJK Ideograph>)
 8358	0x5D6D	嵭 (<CJK Ideograph>)
 8359	0x5DB8	嶸 (<CJK Ideograph>)
 8360	0x5DB9	嶹 (<CJK Ideograph>)
 8361	0x5DD0	巐 (<CJK Ideograph>)
 8362	0x5F21	弡 (<CJK Ideograph>)
 8363	0x5F34	弴 (<CJK Ideograph>)
 8364	0x5F67	彧 (<CJK Ideograph>)
 8365	0x5FB7	德 (<CJK Ideograph>)
 8366	0x5FDE	忞 (<CJK Ideograph>)
 8367	0x605D	恝 (<CJK Ideograph>)
 8368	0x6085	悅 (<CJK Ideograph>)
 8369	0x608A	悊 (<CJK Ideograph>)
 8370	0x60DE	惞 (<CJK Ideograph>)
 8371	0x60D5	惕 (<CJK Ideograph>)
 8372	0x6120	愠 (<CJK Ideograph>)
 8373	0x60F2	惲 (<CJK Ideograph>)
 8374	0x6111	愑 (<CJK Ideograph>)
 8375	0x6137	愷 (<CJK Ideograph>)
 8376	0x6130	愰 (<CJK Ideograph>)
 8377	0x6198	憘 (<CJK Ideograph>)
 8378	0x6213	戓 (<CJK Ideograph>)
 8379	0x62A6	抦 (<CJK Ideograph>)
 8380	0x63F5	揵 (<CJK Ideograph>)
 8381	0x6460	摠 (<CJK Ideograph>)
 8382	0x649D	撝 (<CJK Ideograph>)
 8383	0x64CE	擎 (<CJK Ideograph>)
 8384	0x654E	敎 (<CJK Ideograph>)
 8385	0x6600	昀 (<CJK Ideograph>)
 8386	0x6615	昕 (<CJK Ideograph>)
 8387	0x663B	昻 (<CJK Ideograph>)
 8388	0x6609	昉 (<CJK Ideograph>)
 8389	0x662E	昮 (<CJK Ideograph>)
 8390	0x661E	昞 (<CJK Ideograph>)
 8391	0x6624	昤 (<CJK Ideograph>)
 8392	0x6665	晥 (<CJK Ideograph>)
 8393	0x6657	晗 (<CJK Ideograph>)
 8394	0x6659	晙 (<CJK Ideograph>)
 8395	0xFA12	晴 (CJK COMPATIBILITY IDEOGRAPH-FA12)
 8396	0x6673	晳 (<CJK Ideograph>)
 8397	0x6699	暙 (<CJK Ideograph>)
 8398	0x66A0	暠 (<CJK Ideograph>)
 8399	0x66B2	暲 (<CJK Ideograph>)
 8400	0x66BF	暿 (<CJK Ideograph>)
 8401	0x66FA	曺 (<CJK Ideograph>)
 8402	0x670E	朎 (<CJK Ideograph>)
 8403	0xF929	朗 (CJK COMPATIBILITY IDEOGRAPH-F929)
 8404	0x6766	杦 (<CJK Ideograph>)
 8405	0x67BB	枻 (<CJK Ideograph>)
 8406	0x6852	桒 (<CJK Ideograph>)
 8407	0x67C0	柀 (<CJK Ideograph>)
 8408	0x6801	栁 (<CJK Ideograph>)
 8409	0x6844	桄 (<CJK Ideograph>)
 8410	0x68CF	棏 (<CJK Ideograph>)
 8411	0xFA13	﨓 (CJK COMPATIBILITY IDEOGRAPH-FA13)
 8412	0x6968	楨 (<CJK Ideograph>)
 8413	0xFA14	﨔 (CJK COMPATIBILITY IDEOGRAPH-FA14)
 8414	0x6998	榘 (<CJK Ideograph>)
 8415	0x69E2	槢 (<CJK Ideograph>)
 8416	0x6A30	樰 (<CJK Ideograph>)
 8417	0x6A6B	橫 (<CJK Ideograph>)
 8418	0x6A46	橆 (<CJK Ideograph>)
 8419	0x6A73	橳 (<CJK Ideograph>)
 8420	0x6A7E	橾 (<CJK Ideograph>)
 8421	0x6AE2	櫢 (<CJK Ideograph>)
 8422	0x6AE4	櫤 (<CJK Ideograph>)
 8423	0x6BD6	毖 (<CJK Ideograph>)
 8424	0x6C3F	氿 (<CJK Ideograph>)
 8425	0x6C5C	汜 (<CJK Ideograph>)
 8426	0x6C86	沆 (<CJK Ideograph>)
 8427	0x6C6F	汯 (<CJK Ideograph>)
 8428	0x6CDA	泚 (<CJK Ideograph>)
 8429	0x6D04	洄 (<CJK Ideograph>)
 8430	0x6D87	涇 (<CJK Ideograph>)
 8431	0x6D6F	浯 (<CJK Ideograph>)
 8432	0x6D96	涖 (<CJK Ideograph>)
 8433	0x6DAC	涬 (<CJK Ideograph>)
 8434	0x6DCF	淏 (<CJK Ideograph>)
 8435	0x6DF8	淸 (<CJK Ideograph>)
 8436	0x6DF2	淲 (<CJK Ideograph>)
 8437	0x6DFC	淼 (<CJK Ideograph>)
 8438	0x6E39	渹 (<CJK Ideograph>)
 8439	0x6E5C	湜 (<CJK Ideograph>)
 8440	0x6E27	渧 (<CJK Ideograph>)
 8441	0x6E3C	渼 (<CJK Ideograph>)
 8442	0x6EBF	溿 (<CJK Ideograph>)
 8443	0x6F88	澈 (<CJK Ideograph>)
 8444	0x6FB5	澵 (<CJK Ideograph>)
 8445	0x6FF5	濵 (<CJK Ideograph>)
 8446	0x7005	瀅 (<CJK Ideograph>)
 8447	0x7007	瀇 (<CJK Ideograph>)
 8448	0x7028	瀨 (<CJK Ideograph>)
 8449	0x7085	炅 (<CJK Ideograph>)
 8450	0x70AB	炫 (<CJK Ideograph>)
 8451	0x710F	焏 (<CJK Ideograph>)
 8452	0x7104	焄 (<CJK Ideograph>)
 8453	0x715C	煜 (<CJK Ideograph>)
 8454	0x7146	煆 (<CJK Ideograph>)
 8455	0x7147	煇 (<CJK Ideograph>)
 8456	0xFA15	凞 (CJK COMPATIBILITY IDEOGRAPH-FA15)
 8457	0x71C1	燁 (<CJK Ideograph>)
 8458	0x71FE	燾 (<CJK Ideograph>)
 8459	0x72B1	犱 (<CJK Ideograph>)
"#

/-- encoding_tables/whatwg/index-jis0208.txt:7157-7342 -/
noncomputable def index45 : List Text := lines! r#" 8460	0x72BE	犾 (<CJK Ideograph>)
 8461	0x7324	猤 (<CJK Ideograph>)
 8462	0xFA16	猪 (CJK COMPATIBILITY IDEOGRAPH-FA16)
 8463	0x7377	獷 (<CJK Ideograph>)
 8464	0x73BD	玽 (<CJK Ideograph>)
 8465	0x73C9	珉 (<CJK Ideograph>)
 8466	0x73D6	珖 (<CJK Ideograph>)
 8467	0x73E3	珣 (<CJK Ideograph>)
 8468	0x73D2	珒 (<CJK Ideograph>)
 8469	0x7407	琇 (<CJK Ideograph>)
 8470	0x73F5	珵 (<CJK Ideograph>)
 8471	0x7426	琦 (<CJK Ideograph>)
 8472	0x742A	琪 (<CJK Ideograph>)
 8473	0x7429	琩 (<CJK Ideograph>)
 8474	0x742E	琮 (<CJK Ideograph>)
 8475	0x7462	瑢 (<CJK Ideograph>)
 8476	0x7489	璉 (<CJK Ideograph>)
 8477	0x749F	璟 (<CJK Ideograph>)
 8478	0x7501	甁 (<CJK Ideograph>)
 8479	0x756F	畯 (<CJK Ideograph>)
 8480	0x7682	皂 (<CJK Ideograph>)
 8481	0x769C	皜 (<CJK Ideograph>)
 8482	0x769E	皞 (<CJK Ideograph>)
 8483	0x769B	皛 (<CJK Ideograph>)
 8484	0x76A6	皦 (<CJK Ideograph>)
 8485	0xFA17	益 (CJK COMPATIBILITY IDEOGRAPH-FA17)
 8486	0x7746	睆 (<CJK Ideograph>)
 8487	0x52AF	劯 (<CJK Ideograph>)
 8488	0x7821	砡 (<CJK Ideograph>)
 8489	0x784E	硎 (<CJK Ideograph>)
 8490	0x7864	硤 (<CJK Ideograph>)
 8491	0x787A	硺 (<CJK Ideograph>)
 8492	0x7930	礰 (<CJK Ideograph>)
 8493	0xFA18	礼 (CJK COMPATIBILITY IDEOGRAPH-FA18)
 8494	0xFA19	神 (CJK COMPATIBILITY IDEOGRAPH-FA19)
 8495	0xFA1A	祥 (CJK COMPATIBILITY IDEOGRAPH-FA1A)
 8496	0x7994	禔 (<CJK Ideograph>)
 8497	0xFA1B	福 (CJK COMPATIBILITY IDEOGRAPH-FA1B)
 8498	0x799B	禛 (<CJK Ideograph>)
 8499	0x7AD1	竑 (<CJK Ideograph>)
 8500	0x7AE7	竧 (<CJK Ideograph>)
 8501	0xFA1C	靖 (CJK COMPATIBILITY IDEOGRAPH-FA1C)
 8502	0x7AEB	竫 (<CJK Ideograph>)
 8503	0x7B9E	箞 (<CJK Ideograph>)
 8504	0xFA1D	精 (CJK COMPATIBILITY IDEOGRAPH-FA1D)
 8505	0x7D48	絈 (<CJK Ideograph>)
 8506	0x7D5C	絜 (<CJK Ideograph>)
 8507	0x7DB7	綷 (<CJK Ideograph>)
 8508	0x7DA0	綠 (<CJK Ideograph>)
 8509	0x7DD6	緖 (<CJK Ideograph>)
 8510	0x7E52	繒 (<CJK Ideograph>)
 8511	0x7F47	罇 (<CJK Ideograph>)
 8512	0x7FA1	羡 (<CJK Ideograph>)
 8513	0xFA1E	羽 (CJK COMPATIBILITY IDEOGRAPH-FA1E)
 8514	0x8301	茁 (<CJK Ideograph>)
 8515	0x8362	荢 (<CJK Ideograph>)
 8516	0x837F	荿 (<CJK Ideograph>)
 8517	0x83C7	菇 (<CJK Ideograph>)
 8518	0x83F6	菶 (<CJK Ideograph>)
 8519	0x8448	葈 (<CJK Ideograph>)
 8520	0x84B4	蒴 (<CJK Ideograph>)
 8521	0x8553	蕓 (<CJK Ideograph>)
 8522	0x8559	蕙 (<CJK Ideograph>)
 8523	0x856B	蕫 (<CJK Ideograph>)
 8524	0xFA1F	﨟 (CJK COMPATIBILITY IDEOGRAPH-FA1F)
 8525	0x85B0	薰 (<CJK Ideograph>)
 8526	0xFA20	蘒 (CJK COMPATIBILITY IDEOGRAPH-FA20)
 8527	0xFA21	﨡 (CJK COMPATIBILITY IDEOGRAPH-FA21)
 8528	0x8807	蠇 (<CJK Ideograph>)
 8529	0x88F5	裵 (<CJK Ideograph>)
 8530	0x8A12	訒 (<CJK Ideograph>)
 8531	0x8A37	訷 (<CJK Ideograph>)
 8532	0x8A79	詹 (<CJK Ideograph>)
 8533	0x8AA7	誧 (<CJK Ideograph>)
 8534	0x8ABE	誾 (<CJK Ideograph>)
 8535	0x8ADF	諟 (<CJK Ideograph>)
 8536	0xFA22	諸 (CJK COMPATIBILITY IDEOGRAPH-FA22)
 8537	0x8AF6	諶 (<CJK Ideograph>)
 8538	0x8B53	譓 (<CJK Ideograph>)
 8539	0x8B7F	譿 (<CJK Ideograph>)
 8540	0x8CF0	賰 (<CJK Ideograph>)
 8541	0x8CF4	賴 (<CJK Ideograph>)
 8542	0x8D12	贒 (<CJK Ideograph>)
 8543	0x8D76	赶 (<CJK Ideograph>)
 8544	0xFA23	﨣 (CJK COMPATIBILITY IDEOGRAPH-FA23)
 8545	0x8ECF	軏 (<CJK Ideograph>)
 8546	0xFA24	﨤 (CJK COMPATIBILITY IDEOGRAPH-FA24)
 8547	0xFA25	逸 (CJK COMPATIBILITY IDEOGRAPH-FA25)
 8548	0x9067	遧 (<CJK Ideograph>)
 8549	0x90DE	郞 (<CJK Ideograph>)
 8550	0xFA26	都 (CJK COMPATIBILITY IDEOGRAPH-FA26)
 8551	0x9115	鄕 (<CJK Ideograph>)
 8552	0x9127	鄧 (<CJK Ideograph>)
 8553	0x91DA	釚 (<CJK Ideograph>)
 8554	0x91D7	釗 (<CJK Ideograph>)
 8555	0x91DE	釞 (<CJK Ideograph>)
 8556	0x91ED	釭 (<CJK Ideograph>)
 8557	0x91EE	釮 (<CJK Ideograph>)
 8558	0x91E4	釤 (<CJK Ideograph>)
 8559	0x91E5	釥 (<CJK Ideograph>)
 8560	0x9206	鈆 (<CJK Ideograph>)
 8561	0x9210	鈐 (<CJK Ideograph>)
 8562	0x920A	鈊 (<CJK Ideograph>)
 8563	0x923A	鈺 (<CJK Ideograph>)
 8564	0x9240	鉀 (<CJK Ideograph>)
 8565	0x923C	鈼 (<CJK Ideograph>)
 8566	0x924E	鉎 (<CJK Ideograph>)
 8567	0x9259	鉙 (<CJK Ideograph>)
 8568	0x9251	鉑 (<CJK Ideograph>)
 8569	0x9239	鈹 (<CJK Ideograph>)
 8570	0x9267	鉧 (<CJK Ideograph>)
 8571	0x92A7	銧 (<CJK Ideograph>)
 8572	0x9277	鉷 (<CJK Ideograph>)
 8573	0x9278	鉸 (<CJK Ideograph>)
 8574	0x92E7	鋧 (<CJK Ideograph>)
 8575	0x92D7	鋗 (<CJK Ideograph>)
 8576	0x92D9	鋙 (<CJK Ideograph>)
 8577	0x92D0	鋐 (<CJK Ideograph>)
 8578	0xFA27	﨧 (CJK COMPATIBILITY IDEOGRAPH-FA27)
 8579	0x92D5	鋕 (<CJK Ideograph>)
 8580	0x92E0	鋠 (<CJK Ideograph>)
 8581	0x92D3	鋓 (<CJK Ideograph>)
 8582	0x9325	錥 (<CJK Ideograph>)
 8583	0x9321	錡 (<CJK Ideograph>)
 8584	0x92FB	鋻 (<CJK Ideograph>)
 8585	0xFA28	﨨 (CJK COMPATIBILITY IDEOGRAPH-FA28)
 8586	0x931E	錞 (<CJK Ideograph>)
 8587	0x92FF	鋿 (<CJK Ideograph>)
 8588	0x931D	錝 (<CJK Ideograph>)
 8589	0x9302	錂 (<CJK Ideograph>)
 8590	0x9370	鍰 (<CJK Ideograph>)
 8591	0x9357	鍗 (<CJK Ideograph>)
 8592	0x93A4	鎤 (<CJK Ideograph>)
 8593	0x93C6	鏆 (<CJK Ideograph>)
 8594	0x93DE	鏞 (<CJK Ideograph>)
 8595	0x93F8	鏸 (<CJK Ideograph>)
 8596	0x9431	鐱 (<CJK Ideograph>)
 8597	0x9445	鑅 (<CJK Ideograph>)
 8598	0x9448	鑈 (<CJK Ideograph>)
 8599	0x9592	閒 (<CJK Ideograph>)
 8600	0xF9DC	隆 (CJK COMPATIBILITY IDEOGRAPH-F9DC)
 8601	0xFA29	﨩 (CJK COMPATIBILITY IDEOGRAPH-FA29)
 8602	0x969D	隝 (<CJK Ideograph>)
 8603	0x96AF	隯 (<CJK Ideograph>)
 8604	0x9733	霳 (<CJK Ideograph>)
 8605	0x973B	霻 (<CJK Ideograph>)
 8606	0x9743	靃 (<CJK Ideograph>)
 8607	0x974D	靍 (<CJK Ideograph>)
 8608	0x974F	靏 (<CJK Ideograph>)
 8609	0x9751	靑 (<CJK Ideograph>)
 8610	0x9755	靕 (<CJK Ideograph>)
 8611	0x9857	顗 (<CJK Ideograph>)
 8612	0x9865	顥 (<CJK Ideograph>)
 8613	0xFA2A	飯 (CJK COMPATIBILITY IDEOGRAPH-FA2A)
 8614	0xFA2B	飼 (CJK COMPATIBILITY IDEOGRAPH-FA2B)
 8615	0x9927	餧 (<CJK Ideograph>)
 8616	0xFA2C	館 (CJK COMPATIBILITY IDEOGRAPH-FA2C)
 8617	0x999E	馞 (<CJK Ideograph>)
 8618	0x9A4E	驎 (<CJK Ideograph>)
 8619	0x9AD9	髙 (<CJK Ideograph>)
 8620	0x9ADC	髜 (<CJK Ideograph>)
 8621	0x9B75	魵 (<CJK Ideograph>)
 8622	0x9B72	魲 (<CJK Ideograph>)
 8623	0x9B8F	鮏 (<CJK Ideograph>)
 8624	0x9BB1	鮱 (<CJK Ideograph>)
 8625	0x9BBB	鮻 (<CJK Ideograph>)
 8626	0x9C00	鰀 (<CJK Ideograph>)
 8627	0x9D70	鵰 (<CJK Ideograph>)
 8628	0x9D6B	鵫 (<CJK Ideograph>)
 8629	0xFA2D	鶴 (CJK COMPATIBILITY IDEOGRAPH-FA2D)
 8630	0x9E19	鸙 (<CJK Ideograph>)
 8631	0x9ED1	黑 (<CJK Ideograph>)
 8634	0x2170	ⅰ (SMALL ROMAN NUMERAL ONE)
 8635	0x2171	ⅱ (SMALL ROMAN NUMERAL TWO)
 8636	0x2172	ⅲ (SMALL ROMAN NUMERAL THREE)
 8637	0x2173	ⅳ (SMALL ROMAN NUMERAL FOUR)
 8638	0x2174	ⅴ (SMALL ROMAN NUMERAL FIVE)
 8639	0x2175	ⅵ (SMALL ROMAN NUMERAL SIX)
 8640	0x2176	ⅶ (SMALL ROMAN NUMERAL SEVEN)
 8641	0x2177	ⅷ (SMALL ROMAN NUMERAL EIGHT)
 8642	0x2178	ⅸ (SMALL ROMAN NUMERAL NINE)
 8643	0x2179	ⅹ (SMALL ROMAN NUMERAL TEN)
 8644	0xFFE2	￢ (FULLWIDTH NOT SIGN)
 8645	0xFFE4	￤ (FULLWIDTH BROKEN BAR)
 8646	0xFF07	＇ (FULLWIDTH APOSTROPHE)
 8647	0xFF02	＂ (FULLWIDTH QUOTATION MARK)
"#

/-- encoding_tables/whatwg/index-jis0208.txt (no line) -/
noncomputable def index46 : List Text := []

/-- encoding_tables/whatwg/index-jis0208.txt (no line) -/
noncomputable def index47 : List Text := []

/-- encoding_tables/whatwg/index-jis0208.txt (no line) -/
noncomputable def index48 : List Text := []

/-- encoding_tables/whatwg/index-jis0208.txt (no line) -/
noncomputable def index49 : List Text := []

/-- encoding_tables/whatwg/index-jis0208.txt (no line) -/
noncomputable def index50 : List Text := []

/-- encoding_tables/whatwg/index-jis0208.txt (no line) -/
noncomputable def index51 : List Text := []

/-- encoding_tables/whatwg/index-jis0208.txt (no line) -/
noncomputable def index52 : List Text := []

/-- encoding_tables/whatwg/index-jis0208.txt (no line) -/
noncomputable def index53 : List Text := []

/-- encoding_tables/whatwg/index-jis0208.txt (no line) -/
noncomputable def index54 : List Text := []

/-- encoding_tables/whatwg/index-jis0208.txt (no line) -/
noncomputable def index55 : List Text := []

/-- encoding_tables/whatwg/index-jis0208.txt (no line) -/
noncomputable def index56 : List Text := []

/-- encoding_tables/whatwg/index-jis0208.txt:7343-7530 -/
noncomputable def index57 : List Text := lines! r#"10716	0x2170	ⅰ (SMALL ROMAN NUMERAL ONE)
10717	0x2171	ⅱ (SMALL ROMAN NUMERAL TWO)
10718	0x2172	ⅲ (SMALL ROMAN NUMERAL THREE)
10719	0x2173	ⅳ (SMALL ROMAN NUMERAL FOUR)
10720	0x2174	ⅴ (SMALL ROMAN NUMERAL FIVE)
10721	0x2175	ⅵ (SMALL ROMAN NUMERAL SIX)
10722	0x2176	ⅶ (SMALL ROMAN NUMERAL SEVEN)
10723	0x2177	ⅷ (SMALL ROMAN NUMERAL EIGHT)
10724	0x2178	ⅸ (SMALL ROMAN NUMERAL NINE)
10725	0x2179	ⅹ (SMALL ROMAN NUMERAL TEN)
10726	0x2160	Ⅰ (ROMAN NUMERAL ONE)
10727	0x2161	Ⅱ (ROMAN NUMERAL TWO)
10728	0x2162	Ⅲ (ROMAN NUMERAL THREE)
10729	0x2163	Ⅳ (ROMAN NUMERAL FOUR)
10730	0x2164	Ⅴ (ROMAN NUMERAL FIVE)
10731	0x2165	Ⅵ (ROMAN NUMERAL SIX)
10732	0x2166	Ⅶ (ROMAN NUMERAL SEVEN)
10733	0x2167	Ⅷ (ROMAN NUMERAL EIGHT)
10734	0x2168	Ⅸ (ROMAN NUMERAL NINE)
10735	0x2169	Ⅹ (ROMAN NUMERAL TEN)
10736	0xFFE2	￢ (FULLWIDTH NOT SIGN)
10737	0xFFE4	￤ (FULLWIDTH BROKEN BAR)
10738	0xFF07	＇ (FULLWIDTH APOSTROPHE)
10739	0xFF02	＂ (FULLWIDTH QUOTATION MARK)
10740	0x3231	㈱ (PARENTHESIZED IDEOGRAPH STOCK)
10741	0x2116	№ (NUMERO SIGN)
10742	0x2121	℡ (TELEPHONE SIGN)
10743	0x2235	∵ (BECAUSE)
10744	0x7E8A	纊 (<CJK Ideograph>)
10745	0x891C	褜 (<CJK Ideograph>)
10746	0x9348	鍈 (<CJK Ideograph>)
10747	0x9288	銈 (<CJK Ideograph>)
10748	0x84DC	蓜 (<CJK Ideograph>)
10749	0x4FC9	俉 (<CJK Ideograph>)
10750	0x70BB	炻 (<CJK Ideograph>)
10751	0x6631	昱 (<CJK Ideograph>)
10752	0x68C8	棈 (<CJK Ideograph>)
10753	0x92F9	鋹 (<CJK Ideograph>)
10754	0x66FB	曻 (<CJK Ideograph>)
10755	0x5F45	彅 (<CJK Ideograph>)
10756	0x4E28	丨 (<CJK Ideograph>)
10757	0x4EE1	仡 (<CJK Ideograph>)
10758	0x4EFC	仼 (<CJK Ideograph>)
10759	0x4F00	伀 (<CJK Ideograph>)
10760	0x4F03	伃 (<CJK Ideograph>)
10761	0x4F39	伹 (<CJK Ideograph>)
10762	0x4F56	佖 (<CJK Ideograph>)
10763	0x4F92	侒 (<CJK Ideograph>)
10764	0x4F8A	侊 (<CJK Ideograph>)
10765	0x4F9A	侚 (<CJK Ideograph>)
10766	0x4F94	侔 (<CJK Ideograph>)
10767	0x4FCD	俍 (<CJK Ideograph>)
10768	0x5040	偀 (<CJK Ideograph>)
10769	0x5022	倢 (<CJK Ideograph>)
10770	0x4FFF	俿 (<CJK Ideograph>)
10771	0x501E	倞 (<CJK Ideograph>)
10772	0x5046	偆 (<CJK Ideograph>)
10773	0x5070	偰 (<CJK Ideograph>)
10774	0x5042	偂 (<CJK Ideograph>)
10775	0x5094	傔 (<CJK Ideograph>)
10776	0x50F4	僴 (<CJK Ideograph>)
10777	0x50D8	僘 (<CJK Ideograph>)
10778	0x514A	兊 (<CJK Ideograph>)
10779	0x5164	兤 (<CJK Ideograph>)
10780	0x519D	冝 (<CJK Ideograph>)
10781	0x51BE	冾 (<CJK Ideograph>)
10782	0x51EC	凬 (<CJK Ideograph>)
10783	0x5215	刕 (<CJK Ideograph>)
10784	0x529C	劜 (<CJK Ideograph>)
10785	0x52A6	劦 (<CJK Ideograph>)
10786	0x52C0	勀 (<CJK Ideograph>)
10787	0x52DB	勛 (<CJK Ideograph>)
10788	0x5300	匀 (<CJK Ideograph>)
10789	0x5307	匇 (<CJK Ideograph>)
10790	0x5324	匤 (<CJK Ideograph>)
10791	0x5372	卲 (<CJK Ideograph>)
10792	0x5393	厓 (<CJK Ideograph>)
10793	0x53B2	厲 (<CJK Ideograph>)
10794	0x53DD	叝 (<CJK Ideograph>)
10795	0xFA0E	﨎 (CJK COMPATIBILITY IDEOGRAPH-FA0E)
10796	0x549C	咜 (<CJK Ideograph>)
10797	0x548A	咊 (<CJK Ideograph>)
10798	0x54A9	咩 (<CJK Ideograph>)
10799	0x54FF	哿 (<CJK Ideograph>)
10800	0x5586	喆 (<CJK Ideograph>)
10801	0x5759	坙 (<CJK Ideograph>)
10802	0x5765	坥 (<CJK Ideograph>)
10803	0x57AC	垬 (<CJK Ideograph>)
10804	0x57C8	埈 (<CJK Ideograph>)
10805	0x57C7	埇 (<CJK Ideograph>)
10806	0xFA0F	﨏 (CJK COMPATIBILITY IDEOGRAPH-FA0F)
10807	0xFA10	塚 (CJK COMPATIBILITY IDEOGRAPH-FA10)
10808	0x589E	增 (<CJK Ideograph>)
10809	0x58B2	墲 (<CJK Ideograph>)
10810	0x590B	夋 (<CJK Ideograph>)
10811	0x5953	奓 (<CJK Ideograph>)
10812	0x595B	奛 (<CJK Ideograph>)
10813	0x595D	奝 (<CJK Ideograph>)
10814	0x5963	奣 (<CJK Ideograph>)
10815	0x59A4	妤 (<CJK Ideograph>)
10816	0x59BA	妺 (<CJK Ideograph>)
10817	0x5B56	孖 (<CJK Ideograph>)
10818	0x5BC0	寀 (<CJK Ideograph>)
10819	0x752F	甯 (<CJK Ideograph>)
10820	0x5BD8	寘 (<CJK Ideograph>)
10821	0x5BEC	寬 (<CJK Ideograph>)
10822	0x5C1E	尞 (<CJK Ideograph>)
10823	0x5CA6	岦 (<CJK Ideograph>)
10824	0x5CBA	岺 (<CJK Ideograph>)
10825	0x5CF5	峵 (<CJK Ideograph>)
10826	0x5D27	崧 (<CJK Ideograph>)
10827	0x5D53	嵓 (<CJK Ideograph>)
10828	0xFA11	﨑 (CJK COMPATIBILITY IDEOGRAPH-FA11)
10829	0x5D42	嵂 (<CJK Ideograph>)
10830	0x5D6D	嵭 (<CJK Ideograph>)
10831	0x5DB8	嶸 (<CJK Ideograph>)
10832	0x5DB9	嶹 (<CJK Ideograph>)
10833	0x5DD0	巐 (<CJK Ideograph>)
10834	0x5F21	弡 (<CJK Ideograph>)
10835	0x5F34	弴 (<CJK Ideograph>)
10836	0x5F67	彧 (<CJK Ideograph>)
10837	0x5FB7	德 (<CJK Ideograph>)
10838	0x5FDE	忞 (<CJK Ideograph>)
10839	0x605D	恝 (<CJK Ideograph>)
10840	0x6085	悅 (<CJK Ideograph>)
10841	0x608A	悊 (<CJK Ideograph>)
10842	0x60DE	惞 (<CJK Ideograph>)
10843	0x60D5	惕 (<CJK Ideograph>)
10844	0x6120	愠 (<CJK Ideograph>)
10845	0x60F2	惲 (<CJK Ideograph>)
10846	0x6111	愑 (<CJK Ideograph>)
10847	0x6137	愷 (<CJK Ideograph>)
10848	0x6130	愰 (<CJK Ideograph>)
10849	0x6198	憘 (<CJK Ideograph>)
10850	0x6213	戓 (<CJK Ideograph>)
10851	0x62A6	抦 (<CJK Ideograph>)
10852	0x63F5	揵 (<CJK Ideograph>)
10853	0x6460	摠 (<CJK Ideograph>)
10854	0x649D	撝 (<CJK Ideograph>)
10855	0x64CE	擎 (<CJK Ideograph>)
10856	0x654E	敎 (<CJK Ideograph>)
10857	0x6600	昀 (<CJK Ideograph>)
10858	0x6615	昕 (<CJK Ideograph>)
10859	0x663B	昻 (<CJK Ideograph>)
10860	0x6609	昉 (<CJK Ideograph>)
10861	0x662E	昮 (<CJK Ideograph>)
10862	0x661E	昞 (<CJK Ideograph>)
10863	0x6624	昤 (<CJK Ideograph>)
10864	0x6665	晥 (<CJK Ideograph>)
10865	0x6657	晗 (<CJK Ideograph>)
10866	0x6659	晙 (<CJK Ideograph>)
10867	0xFA12	晴 (CJK COMPATIBILITY IDEOGRAPH-FA12)
10868	0x6673	晳 (<CJK Ideograph>)
10869	0x6699	暙 (<CJK Ideograph>)
10870	0x66A0	暠 (<CJK Ideograph>)
10871	0x66B2	暲 (<CJK Ideograph>)
10872	0x66BF	暿 (<CJK Ideograph>)
10873	0x66FA	曺 (<CJK Ideograph>)
10874	0x670E	朎 (<CJK Ideograph>)
10875	0xF929	朗 (CJK COMPATIBILITY IDEOGRAPH-F929)
10876	0x6766	杦 (<CJK Ideograph>)
10877	0x67BB	枻 (<CJK Ideograph>)
10878	0x6852	桒 (<CJK Ideograph>)
10879	0x67C0	柀 (<CJK Ideograph>)
10880	0x6801	栁 (<CJK Ideograph>)
10881	0x6844	桄 (<CJK Ideograph>)
10882	0x68CF	棏 (<CJK Ideograph>)
10883	0xFA13	﨓 (CJK COMPATIBILITY IDEOGRAPH-FA13)
10884	0x6968	楨 (<CJK Ideograph>)
10885	0xFA14	﨔 (CJK COMPATIBILITY IDEOGRAPH-FA14)
10886	0x6998	榘 (<CJK Ideograph>)
10887	0x69E2	槢 (<CJK Ideograph>)
10888	0x6A30	樰 (<CJK Ideograph>)
10889	0x6A6B	橫 (<CJK Ideograph>)
10890	0x6A46	橆 (<CJK Ideograph>)
10891	0x6A73	橳 (<CJK Ideograph>)
10892	0x6A7E	橾 (<CJK Ideograph>)
10893	0x6AE2	櫢 (<CJK Ideograph>)
10894	0x6AE4	櫤 (<CJK Ideograph>)
10895	0x6BD6	毖 (<CJK Ideograph>)
10896	0x6C3F	氿 (<CJK Ideograph>)
10897	0x6C5C	汜 (<CJK Ideograph>)
10898	0x6C86	沆 (<CJK Ideograph>)
10899	0x6C6F	汯 (<CJK Ideograph>)
10900	0x6CDA	泚 (<CJK Ideograph>)
10901	0x6D04	洄 (<CJK Ideograph>)
10902	0x6D87	涇 (<CJK Ideograph>)
10903	0x6D6F	浯 (<CJK Ideograph>)
"#

/-- encoding_tables/whatwg/index-jis0208.txt:7531-7718 -/
noncomputable def index58 : List Text := lines! r#"10904	0x6D96	涖 (<CJK Ideograph>)
10905	0x6DAC	涬 (<CJK Ideograph>)
10906	0x6DCF	淏 (<CJK Ideograph>)
10907	0x6DF8	淸 (<CJK Ideograph>)
10908	0x6DF2	淲 (<CJK Ideograph>)
10909	0x6DFC	淼 (<CJK Ideograph>)
10910	0x6E39	渹 (<CJK Ideograph>)
10911	0x6E5C	湜 (<CJK Ideograph>)
10912	0x6E27	渧 (<CJK Ideograph>)
10913	0x6E3C	渼 (<CJK Ideograph>)
10914	0x6EBF	溿 (<CJK Ideograph>)
10915	0x6F88	澈 (<CJK Ideograph>)
10916	0x6FB5	澵 (<CJK Ideograph>)
10917	0x6FF5	濵 (<CJK Ideograph>)
10918	0x7005	瀅 (<CJK Ideograph>)
10919	0x7007	瀇 (<CJK Ideograph>)
10920	0x7028	瀨 (<CJK Ideograph>)
10921	0x7085	炅 (<CJK Ideograph>)
10922	0x70AB	炫 (<CJK Ideograph>)
10923	0x710F	焏 (<CJK Ideograph>)
10924	0x7104	焄 (<CJK Ideograph>)
10925	0x715C	煜 (<CJK Ideograph>)
10926	0x7146	煆 (<CJK Ideograph>)
10927	0x7147	煇 (<CJK Ideograph>)
10928	0xFA15	凞 (CJK COMPATIBILITY IDEOGRAPH-FA15)
10929	0x71C1	燁 (<CJK Ideograph>)
10930	0x71FE	燾 (<CJK Ideograph>)
10931	0x72B1	犱 (<CJK Ideograph>)
10932	0x72BE	犾 (<CJK Ideograph>)
10933	0x7324	猤 (<CJK Ideograph>)
10934	0xFA16	猪 (CJK COMPATIBILITY IDEOGRAPH-FA16)
10935	0x7377	獷 (<CJK Ideograph>)
10936	0x73BD	玽 (<CJK Ideograph>)
10937	0x73C9	珉 (<CJK Ideograph>)
10938	0x73D6	珖 (<CJK Ideograph>)
10939	0x73E3	珣 (<CJK Ideograph>)
10940	0x73D2	珒 (<CJK Ideograph>)
10941	0x7407	琇 (<CJK Ideograph>)
10942	0x73F5	珵 (<CJK Ideograph>)
10943	0x7426	琦 (<CJK Ideograph>)
10944	0x742A	琪 (<CJK Ideograph>)
10945	0x7429	琩 (<CJK Ideograph>)
10946	0x742E	琮 (<CJK Ideograph>)
10947	0x7462	瑢 (<CJK Ideograph>)
10948	0x7489	璉 (<CJK Ideograph>)
10949	0x749F	璟 (<CJK Ideograph>)
10950	0x7501	甁 (<CJK Ideograph>)
10951	0x756F	畯 (<CJK Ideograph>)
10952	0x7682	皂 (<CJK Ideograph>)
10953	0x769C	皜 (<CJK Ideograph>)
10954	0x769E	皞 (<CJK Ideograph>)
10955	0x769B	皛 (<CJK Ideograph>)
10956	0x76A6	皦 (<CJK Ideograph>)
10957	0xFA17	益 (CJK COMPATIBILITY IDEOGRAPH-FA17)
10958	0x7746	睆 (<CJK Ideograph>)
10959	0x52AF	劯 (<CJK Ideograph>)
10960	0x7821	砡 (<CJK Ideograph>)
10961	0x784E	硎 (<CJK Ideograph>)
10962	0x7864	硤 (<CJK Ideograph>)
10963	0x787A	硺 (<CJK Ideograph>)
10964	0x7930	礰 (<CJK Ideograph>)
10965	0xFA18	礼 (CJK COMPATIBILITY IDEOGRAPH-FA18)
10966	0xFA19	神 (CJK COMPATIBILITY IDEOGRAPH-FA19)
10967	0xFA1A	祥 (CJK COMPATIBILITY IDEOGRAPH-FA1A)
10968	0x7994	禔 (<CJK Ideograph>)
10969	0xFA1B	福 (CJK COMPATIBILITY IDEOGRAPH-FA1B)
10970	0x799B	禛 (<CJK Ideograph>)
10971	0x7AD1	竑 (<CJK Ideograph>)
10972	0x7AE7	竧 (<CJK Ideograph>)
10973	0xFA1C	靖 (CJK COMPATIBILITY IDEOGRAPH-FA1C)
10974	0x7AEB	竫 (<CJK Ideograph>)
10975	0x7B9E	箞 (<CJK Ideograph>)
10976	0xFA1D	精 (CJK COMPATIBILITY IDEOGRAPH-FA1D)
10977	0x7D48	絈 (<CJK Ideograph>)
10978	0x7D5C	絜 (<CJK Ideograph>)
10979	0x7DB7	綷 (<CJK Ideograph>)
10980	0x7DA0	綠 (<CJK Ideograph>)
10981	0x7DD6	緖 (<CJK Ideograph>)
10982	0x7E52	繒 (<CJK Ideograph>)
10983	0x7F47	罇 (<CJK Ideograph>)
10984	0x7FA1	羡 (<CJK Ideograph>)
10985	0xFA1E	羽 (CJK COMPATIBILITY IDEOGRAPH-FA1E)
10986	0x8301	茁 (<CJK Ideograph>)
10987	0x8362	荢 (<CJK Ideograph>)
10988	0x837F	荿 (<CJK Ideograph>)
10989	0x83C7	菇 (<CJK Ideograph>)
10990	0x83F6	菶 (<CJK Ideograph>)
10991	0x8448	葈 (<CJK Ideograph>)
10992	0x84B4	蒴 (<CJK Ideograph>)
10993	0x8553	蕓 (<CJK Ideograph>)
10994	0x8559	蕙 (<CJK Ideograph>)
10995	0x856B	蕫 (<CJK Ideograph>)
10996	0xFA1F	﨟 (CJK COMPATIBILITY IDEOGRAPH-FA1F)
10997	0x85B0	薰 (<CJK Ideograph>)
10998	0xFA20	蘒 (CJK COMPATIBILITY IDEOGRAPH-FA20)
10999	0xFA21	﨡 (CJK COMPATIBILITY IDEOGRAPH-FA21)
11000	0x8807	蠇 (<CJK Ideograph>)
11001	0x88F5	裵 (<CJK Ideograph>)
11002	0x8A12	訒 (<CJK Ideograph>)
11003	0x8A37	訷 (<CJK Ideograph>)
11004	0x8A79	詹 (<CJK Ideograph>)
11005	0x8AA7	誧 (<CJK Ideograph>)
11006	0x8ABE	誾 (<CJK Ideograph>)
11007	0x8ADF	諟 (<CJK Ideograph>)
11008	0xFA22	諸 (CJK COMPATIBILITY IDEOGRAPH-FA22)
11009	0x8AF6	諶 (<CJK Ideograph>)
11010	0x8B53	譓 (<CJK Ideograph>)
11011	0x8B7F	譿 (<CJK Ideograph>)
11012	0x8CF0	賰 (<CJK Ideograph>)
11013	0x8CF4	賴 (<CJK Ideograph>)
11014	0x8D12	贒 (<CJK Ideograph>)
11015	0x8D76	赶 (<CJK Ideograph>)
11016	0xFA23	﨣 (CJK COMPATIBILITY IDEOGRAPH-FA23)
11017	0x8ECF	軏 (<CJK Ideograph>)
11018	0xFA24	﨤 (CJK COMPATIBILITY IDEOGRAPH-FA24)
11019	0xFA25	逸 (CJK COMPATIBILITY IDEOGRAPH-FA25)
11020	0x9067	遧 (<CJK Ideograph>)
11021	0x90DE	郞 (<CJK Ideograph>)
11022	0xFA26	都 (CJK COMPATIBILITY IDEOGRAPH-FA26)
11023	0x9115	鄕 (<CJK Ideograph>)
11024	0x9127	鄧 (<CJK Ideograph>)
11025	0x91DA	釚 (<CJK Ideograph>)
11026	0x91D7	釗 (<CJK Ideograph>)
11027	0x91DE	釞 (<CJK Ideograph>)
11028	0x91ED	釭 (<CJK Ideograph>)
11029	0x91EE	釮 (<CJK Ideograph>)
11030	0x91E4	釤 (<CJK Ideograph>)
11031	0x91E5	釥 (<CJK Ideograph>)
11032	0x9206	鈆 (<CJK Ideograph>)
11033	0x9210	鈐 (<CJK Ideograph>)
11034	0x920A	鈊 (<CJK Ideograph>)
11035	0x923A	鈺 (<CJK Ideograph>)
11036	0x9240	鉀 (<CJK Ideograph>)
11037	0x923C	鈼 (<CJK Ideograph>)
11038	0x924E	鉎 (<CJK Ideograph>)
11039	0x9259	鉙 (<CJK Ideograph>)
11040	0x9251	鉑 (<CJK Ideograph>)
11041	0x9239	鈹 (<CJK Ideograph>)
11042	0x9267	鉧 (<CJK Ideograph>)
11043	0x92A7	銧 (<CJK Ideograph>)
11044	0x9277	鉷 (<CJK Ideograph>)
11045	0x9278	鉸 (<CJK Ideograph>)
11046	0x92E7	鋧 (<CJK Ideograph>)
11047	0x92D7	鋗 (<CJK Ideograph>)
11048	0x92D9	鋙 (<CJK Ideograph>)
11049	0x92D0	鋐 (<CJK Ideograph>)
11050	0xFA27	﨧 (CJK COMPATIBILITY IDEOGRAPH-FA27)
11051	0x92D5	鋕 (<CJK Ideograph>)
11052	0x92E0	鋠 (<CJK Ideograph>)
11053	0x92D3	鋓 (<CJK Ideograph>)
11054	0x9325	錥 (<CJK Ideograph>)
11055	0x9321	錡 (<CJK Ideograph>)
11056	0x92FB	鋻 (<CJK Ideograph>)
11057	0xFA28	﨨 (CJK COMPATIBILITY IDEOGRAPH-FA28)
11058	0x931E	錞 (<CJK Ideograph>)
11059	0x92FF	鋿 (<CJK Ideograph>)
11060	0x931D	錝 (<CJK Ideograph>)
11061	0x9302	錂 (<CJK Ideograph>)
11062	0x9370	鍰 (<CJK Ideograph>)
11063	0x9357	鍗 (<CJK Ideograph>)
11064	0x93A4	鎤 (<CJK Ideograph>)
11065	0x93C6	鏆 (<CJK Ideograph>)
11066	0x93DE	鏞 (<CJK Ideograph>)
11067	0x93F8	鏸 (<CJK Ideograph>)
11068	0x9431	鐱 (<CJK Ideograph>)
11069	0x9445	鑅 (<CJK Ideograph>)
11070	0x9448	鑈 (<CJK Ideograph>)
11071	0x9592	閒 (<CJK Ideograph>)
11072	0xF9DC	隆 (CJK COMPATIBILITY IDEOGRAPH-F9DC)
11073	0xFA29	﨩 (CJK COMPATIBILITY IDEOGRAPH-FA29)
11074	0x969D	隝 (<CJK Ideograph>)
11075	0x96AF	隯 (<CJK Ideograph>)
11076	0x9733	霳 (<CJK Ideograph>)
11077	0x973B	霻 (<CJK Ideograph>)
11078	0x9743	靃 (<CJK Ideograph>)
11079	0x974D	靍 (<CJK Ideograph>)
11080	0x974F	靏 (<CJK Ideograph>)
11081	0x9751	靑 (<CJK Ideograph>)
11082	0x9755	靕 (<CJK Ideograph>)
11083	0x9857	顗 (<CJK Ideograph>)
11084	0x9865	顥 (<CJK Ideograph>)
11085	0xFA2A	飯 (CJK COMPATIBILITY IDEOGRAPH-FA2A)
11086	0xFA2B	飼 (CJK COMPATIBILITY IDEOGRAPH-FA2B)
11087	0x9927	餧 (<CJK Ideograph>)
11088	0xFA2C	館 (CJK COMPATIBILITY IDEOGRAPH-FA2C)
11089	0x999E	馞 (<CJK Ideograph>)
11090	0x9A4E	驎 (<CJK Ideograph>)
11091	0x9AD9	髙 (<CJK Ideograph>)
"#

/-- encoding_tables/whatwg/index-jis0208.txt:7719-7730 -/
noncomputable def index59 : List Text := lines! r#"11092	0x9ADC	髜 (<CJK Ideograph>)
11093	0x9B75	魵 (<CJK Ideograph>)
11094	0x9B72	魲 (<CJK Ideograph>)
11095	0x9B8F	鮏 (<CJK Ideograph>)
11096	0x9BB1	鮱 (<CJK Ideograph>)
11097	0x9BBB	鮻 (<CJK Ideograph>)
11098	0x9C00	鰀 (<CJK Ideograph>)
11099	0x9D70	鵰 (<CJK Ideograph>)
11100	0x9D6B	鵫 (<CJK Ideograph>)
11101	0xFA2D	鶴 (CJK COMPATIBILITY IDEOGRAPH-FA2D)
11102	0x9E19	鸙 (<CJK Ideograph>)
11103	0x9ED1	黑 (<CJK Ideograph>)
"#

end Verif.Files.ShiftJis
