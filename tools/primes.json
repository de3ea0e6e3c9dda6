{
"factors": {
"115792089237316195423570985008687907853269984665640564039457584007908834671663": [
2,
3,
7,
13441,
205115282021455665897114700593932402728804164701536103180137503955397371
],
"205115282021455665897114700593932402728804164701536103180137503955397371": [
2,
3,
5,
29,
29,
31,
7723,
132896956044521568488119,
255515944373312847190720520512484175977
],
"132896956044521568488119": [
2,
3,
22149492674086928081353
],
"22149492674086928081353": [
2,
2,
2,
3,
5323,
173378833005251801
],
"173378833005251801": [
2,
2,
2,
5,
5,
2621,
24809,
13331831
],
"255515944373312847190720520512484175977": [
2,
2,
2,
7,
7,
11,
1627,
2657,
4423,
41201,
96557,
7240687,
107590001
],
"115792089237316195423570985008687907852837564279074904382605163141518161494337": [
2,
2,
2,
2,
2,
2,
3,
149,
631,
107361793816595537,
174723607534414371449,
341948486974166000522343609283189
],
"107361793816595537": [
2,
2,
2,
2,
16699,
85831,
4681609
],
"174723607534414371449": [
2,
2,
2,
17,
59,
4051,
120233,
44706919
],
"341948486974166000522343609283189": [
2,
2,
3,
3,
3,
109,
29047611873442575647497758179
],
"29047611873442575647497758179": [
2,
293,
305873,
545358713,
297159362677
],
"115792089210356248762697446949407573530086143415290314195533631308867097853951": [
2,
3,
5,
5,
17,
257,
641,
1531,
65537,
490463,
6700417,
835945042244614951780389953367877943453916927241
],
"835945042244614951780389953367877943453916927241": [
2,
2,
2,
3,
3,
3,
5,
774023187263532362759620327192479577272145303
],
"774023187263532362759620327192479577272145303": [
2,
3,
3,
2411,
34282281433,
11290956913871,
46076956964474543
],
"11290956913871": [
2,
5,
17,
66417393611
],
"46076956964474543": [
2,
23,
18169,
78283,
704251
],
"115792089210356248762697446949407573529996955224135760342422259061068512044369": [
2,
2,
2,
2,
3,
71,
131,
373,
3407,
17449,
38189,
187019741,
622491383,
1002328039319,
2624747550333869278416773953
],
"1002328039319": [
2,
126241,
3969899
],
"2624747550333869278416773953": [
2,
2,
2,
2,
2,
2,
3,
3,
1297,
16879,
208150935158385979
],
"208150935158385979": [
2,
3,
11,
43,
127,
3023,
191039911
],
"57896044618658097711785492504343953926634992332820282019728792003956564819949": [
2,
2,
3,
65147,
74058212732561358302231226437062788676166966415465897661863160754340907
],
"74058212732561358302231226437062788676166966415465897661863160754340907": [
2,
3,
353,
57467,
132049,
1923133,
31757755568855353,
75445702479781427272750846543864801
],
"31757755568855353": [
2,
2,
2,
3,
31,
107,
223,
4153,
430751
],
"75445702479781427272750846543864801": [
2,
2,
2,
2,
2,
3,
3,
5,
5,
75707,
72106336199,
1919519569386763
],
"1919519569386763": [
2,
3,
7,
19,
47,
47,
127,
8574133
],
"7237005577332262213973186563042994240857116359379907606001950938285454250989": [
2,
2,
3,
11,
198211423230930754013084525763697,
276602624281642239937218680557139826668747
],
"198211423230930754013084525763697": [
2,
2,
2,
2,
3,
23,
58964693,
3044861653679985063343
],
"3044861653679985063343": [
2,
3,
11,
30703,
82163,
132667,
137849
],
"276602624281642239937218680557139826668747": [
2,
7,
19757330305831588566944191468367130476339
],
"19757330305831588566944191468367130476339": [
2,
269,
213441916511,
172054593956031949258510691
],
"172054593956031949258510691": [
2,
5,
1361,
2851,
4434155615661930479
],
"4434155615661930479": [
2,
41,
43,
1257559732178653
],
"1257559732178653": [
2,
2,
3,
7,
23,
531581,
1224481
],
"26959946667150639794667015087019630673557916260026308143510066298881": [
2,
2,
2,
2,
2,
2,
2,
2,
2,
2,
2,
2,
2,
2,
2,
2,
2,
2,
2,
2,
2,
2,
2,
2,
2,
2,
2,
2,
2,
2,
2,
2,
2,
2,
2,
2,
2,
2,
2,
2,
2,
2,
2,
2,
2,
2,
2,
2,
2,
2,
2,
2,
2,
2,
2,
2,
2,
2,
2,
2,
2,
2,
2,
2,
2,
2,
2,
2,
2,
2,
2,
2,
2,
2,
2,
2,
2,
2,
2,
2,
2,
2,
2,
2,
2,
2,
2,
2,
2,
2,
2,
2,
2,
2,
2,
2,
3,
5,
17,
257,
641,
65537,
274177,
6700417,
67280421310721
],
"67280421310721": [
2,
2,
2,
2,
2,
2,
2,
2,
5,
47,
373,
2998279
],
"26959946667150639794667015087019625940457807714424391721682722368061": [
2,
2,
3,
3,
3,
3,
3,
3,
5,
17,
2153,
50520606258875818707470860153287666700917696099933389351507
],
"50520606258875818707470860153287666700917696099933389351507": [
2,
89,
631,
85999,
13928737,
375503554633724504423937478103159147573209
],
"375503554633724504423937478103159147573209": [
2,
2,
2,
3,
2707,
166823,
34646440928557194402992574983797
],
"34646440928557194402992574983797": [
2,
2,
3,
61,
347,
136401162692544977256234449
],
"136401162692544977256234449": [
2,
2,
2,
2,
31,
20599,
30859,
432621809776543
],
"432621809776543": [
2,
3,
87739,
821796863
],
"726838724295606890549323807888004534353641360687318060281490199180612328166730772686396383698676545930088884461843637361053498018365439": [
2,
641,
18287,
196687,
1466449,
2916841,
6700417,
1469495262398780123809,
167773885276849215533569,
596242599987116128415063,
37414057161322375957408148834323969
],
"1469495262398780123809": [
2,
2,
2,
2,
2,
3,
7,
7,
223,
411743,
3402277943
],
"167773885276849215533569": [
2,
2,
2,
2,
2,
2,
2,
2,
2,
3,
3,
3,
7,
7,
2531,
97859369123353
],
"97859369123353": [
2,
2,
2,
3,
3,
67,
197,
271,
379979
],
"596242599987116128415063": [
2,
37,
223,
36131535570665139281
],
"36131535570665139281": [
2,
2,
2,
2,
5,
13,
34741861125639557
],
"34741861125639557": [
2,
2,
7,
7,
7,
31,
463,
1764234391
],
"37414057161322375957408148834323969": [
2,
2,
2,
2,
2,
2,
2,
2,
2,
3,
3,
7,
36753053,
1255525949,
25136521679249
],
"25136521679249": [
2,
2,
2,
2,
7,
7,
32061889897
],
"3618502788666131106986593281521497120414687020801267626233049500247285301239": [
2,
19,
3121,
30510656070643106182115999270826633842178510774222732476374386585332681
],
"30510656070643106182115999270826633842178510774222732476374386585332681": [
2,
2,
2,
5,
31,
11783,
42853,
2151858718037429125511251,
22645347980446549950250344634517843
],
"2151858718037429125511251": [
2,
3,
5,
5,
5,
5,
28145939,
20387630040577
],
"20387630040577": [
2,
2,
2,
2,
2,
2,
2,
2,
2,
3,
17,
401,
1947073
],
"22645347980446549950250344634517843": [
2,
7,
13,
53,
7889059,
297581916939273464475253
],
"297581916939273464475253": [
2,
2,
3,
11,
1109324011,
2032236244151
],
"2032236244151": [
2,
5,
5,
7,
5113,
1135613
],
"6277101735386680763835789423207666416083908700390324961279": [
2,
59,
149309,
11393611,
108341181769254293,
288626509448065367648032903
],
"108341181769254293": [
2,
2,
17,
43,
2477,
54251,
275729
],
"288626509448065367648032903": [
2,
3,
19,
19,
37,
607,
5933177618131140283
],
"5933177618131140283": [
2,
3,
3,
723127,
455827231987
],
"6277101735386680763835789423176059013767194773182842284081": [
2,
2,
2,
2,
5,
2389,
9564682313913860059195669,
3433859179316188682119986911
],
"9564682313913860059195669": [
2,
2,
3,
7,
15716741,
7244839476697597
],
"7244839476697597": [
2,
2,
3,
239,
54623,
46245989
],
"3433859179316188682119986911": [
2,
5,
439,
103840547,
7532705587894727
],
"7532705587894727": [
2,
29,
43,
43,
331,
4127,
51419
],
"904625697166532776746648320380374280092339035279495474023489261773642975601": [
2,
2,
2,
2,
3,
3,
5,
5,
7,
17,
5662229,
53308853141,
60171084739669153,
152435752726607681,
762707485068427817
],
"60171084739669153": [
2,
2,
2,
2,
2,
3,
4967,
231503,
545087
],
"152435752726607681": [
2,
2,
2,
2,
2,
2,
5,
11,
43305611570059
],
"43305611570059": [
2,
3,
41,
176039071423
],
"762707485068427817": [
2,
2,
2,
95338435633553477
],
"95338435633553477": [
2,
2,
7,
13,
431,
1163,
522528103
],
"39402006196394479212279040100143613805079739270465446667946905279627659399113263569398956308152294913554433653942643": [
2,
3,
3,
7,
7,
13,
1124679999981664229965379347,
3055465788140352002733946906144561090641249606160407884365391979704929268480326390471
],
"1124679999981664229965379347": [
2,
3,
1553,
120699720968197491947347
],
"120699720968197491947347": [
2,
3,
13,
34429,
154950581,
290064143
],
"3055465788140352002733946906144561090641249606160407884365391979704929268480326390471": [
2,
3,
5,
151,
347,
1276987,
1436833069313,
1059392654943455286185473617842338478315215895509773412096307
],
"1436833069313": [
2,
2,
2,
2,
2,
2,
2,
2,
16979,
330563
],
"1059392654943455286185473617842338478315215895509773412096307": [
2,
251,
248431,
8463023,
55942463741690639,
17942392077136950785977011829
],
"55942463741690639": [
2,
7,
107,
37344768852931
],
"37344768852931": [
2,
3,
5,
7,
11,
11,
149,
9863677
],
"17942392077136950785977011829": [
2,
2,
3,
1495199339761412565498084319
],
"1495199339761412565498084319": [
2,
3,
3,
3,
64901,
426632512014427833817
],
"426632512014427833817": [
2,
2,
2,
3,
13,
89,
659,
23314383343543
],
"23314383343543": [
2,
3,
17,
228572385721
],
"39402006196394479212279040100143613805079739270465446667948293404245721771496870329047266088258938001861606973112319": [
2,
19,
67,
807145746439,
19173790298027098165721053155794528970226934547887232785722672956982046098136719667167519737147526097
],
"19173790298027098165721053155794528970226934547887232785722672956982046098136719667167519737147526097": [
2,
2,
2,
2,
11,
11,
11,
8389,
38557,
312289,
1357291859799823621,
529709925838459440593,
12397338596863679689524759770405177749801411
],
"1357291859799823621": [
2,
2,
3,
5,
67,
6317,
53448597593
],
"529709925838459440593": [
2,
2,
2,
2,
7,
181,
105957871,
246608641
],
"12397338596863679689524759770405177749801411": [
2,
3,
5,
413244619895455989650825325680172591660047
],
"413244619895455989650825325680172591660047": [
2,
17,
97,
6051631,
20705423504133292078628634597817
],
"20705423504133292078628634597817": [
2,
2,
2,
3,
862725979338887169942859774909
],
"862725979338887169942859774909": [
2,
2,
3,
3,
23964610537191310276190549303
],
"23964610537191310276190549303": [
2,
336757,
35581458644053887931343
],
"35581458644053887931343": [
2,
17,
41,
568151,
44925942675193
],
"44925942675193": [
2,
2,
2,
3,
3517,
532247449
],
"6864797660130609714981900799081393217269435300143305409394463459185543183397655394245057746333217197532963996371363321113864768612440380340372808892707005449": [
2,
2,
2,
7,
11,
1283,
1458105463,
1647781915921980690468599,
3615194794881930010216942559103847593050265703173292383701371712350878926821661243755933835426896058418509759880171943
],
"1647781915921980690468599": [
2,
17,
547,
88599952463812275001
],
"88599952463812275001": [
2,
2,
2,
3,
5,
5,
5,
5,
5,
19,
281,
1187,
186406729
],
"3615194794881930010216942559103847593050265703173292383701371712350878926821661243755933835426896058418509759880171943": [
2,
3,
3,
11,
31,
161969,
3636410625392624440351547907325502812950802686368714273274221490761556277859337865760708490235892541081304511
],
"3636410625392624440351547907325502812950802686368714273274221490761556277859337865760708490235892541081304511": [
2,
5,
19,
263,
5449,
15601,
370471
],
"6864797660130609714981900799081393217269435300143305409394463459185543183397656052122559640661454554977296311391480858037121987999716643812574028291115057151": [
2,
3,
5,
5,
11,
17,
31,
41,
53,
131,
157,
521,
1613,
2731,
8191,
51481,
409891,
7623851,
34110701,
108140989558681,
145295143558111
],
"108140989558681": [
2,
2,
2,
3,
3,
5,
13,
683,
1433,
23609
],
"145295143558111": [
2,
3,
3,
5,
7,
7,
13,
2534364967
],
"110307921567191189197709869899947667793": [
2,
2,
2,
2,
3,
13,
65867,
7373935444559,
363961040016398311
],
"363961040016398311": [
2,
3,
3,
5,
4093,
80911,
12211333
],
"12211333": [
2,
2,
3,
7,
37,
3929
],
"7373935444559": [
2,
71,
1471,
35301919
],
"35301919": [
2,
3,
23,
491,
521
],
"195059046191794749398522364385771621": [
2,
2,
3,
3,
5,
7,
313,
2267,
97340297,
122844991,
18245239711
],
"97340297": [
2,
2,
2,
12167537
],
"12167537": [
2,
2,
2,
2,
349,
2179
],
"18245239711": [
2,
3,
5,
197,
3087181
],
"122844991": [
2,
3,
5,
53,
77261
]
},
"names": {
"p192": "6277101735386680763835789423207666416083908700390324961279",
"p224": "26959946667150639794667015087019630673557916260026308143510066298881",
"p256": "115792089210356248762697446949407573530086143415290314195533631308867097853951",
"p384": "39402006196394479212279040100143613805079739270465446667948293404245721771496870329047266088258938001861606973112319",
"p521": "6864797660130609714981900799081393217269435300143305409394463459185543183397656052122559640661454554977296311391480858037121987999716643812574028291115057151",
"k1": "115792089237316195423570985008687907853269984665640564039457584007908834671663",
"p25519": "57896044618658097711785492504343953926634992332820282019728792003956564819949",
"p448": "726838724295606890549323807888004534353641360687318060281490199180612328166730772686396383698676545930088884461843637361053498018365439",
"p251": "3618502788666131106986593281521497120414687020801267626233049500247285301239",
"field_q192": "6277101735386680763835789423176059013767194773182842284081",
"field_q224": "26959946667150639794667015087019625940457807714424391721682722368061",
"field_q256": "115792089210356248762697446949407573529996955224135760342422259061068512044369",
"field_q384": "39402006196394479212279040100143613805079739270465446667946905279627659399113263569398956308152294913554433653942643",
"field_secq256k1": "115792089237316195423570985008687907852837564279074904382605163141518161494337",
"field_q25519": "7237005577332262213973186563042994240857116359379907606001950938285454250989",
"field_q251": "904625697166532776746648320380374280092339035279495474023489261773642975601",
"field_q521": "6864797660130609714981900799081393217269435300143305409394463459185543183397655394245057746333217197532963996371363321113864768612440380340372808892707005449",
"field_q448": "181709681073901722637330951972001133588410340171829515070372549795146003961539585716195755291692375963310293709091662304773755859649779",
"t25519": "14474011154664524427946373126085988481603263447650325797860494125407373907997",
"t448": "181709681073901722637330951972001133588410340171829515070372549795160160121825800627002436557645897001734148521830156375752993149532941"
},
"curves": {
"6864797660130609714981900799081393217269435300143305409394463459185543183397655394245057746333217197532963996371363321113864768612440380340372808892707005449": {
"a": "5687885755246274187909428600796668834588949315274991380056380555259715763028350769874084104143719385592567071548247699541298699171807066409284191448905815600",
"b": "5621621317248118096946308221590716323873111543075986912026279747702581633181974840579383363753138931493817287617589797992218214432586937400662914655306301436",
"x": "6359092567667326222313867769094683880642753303082204073915147165701176409737155480543486658749850245927779666471990138056441949286613676946911865444508854117",
"y": "113167169421676848536114968732571576806441284867989745952478645941777076976797523726739742283177446166223267442246844236388708374182558919604381924690281419",
"s": "541725167354261748087129082832763463531346909727327475326470131493992093451699854118477352840110414755771302087221454184888133860507555155631941607561"
},
"541725167354261748087129082832763463531346909727327475326470131493992093451699854118477352840110414755771302087221454184888133860507555155631941607561": {
"a": "291797835682573328842854590088274452568258909306290014583619780281453268798421230833425716012976957789232024108168610778505105235994623631444335473108",
"b": "0",
"x": "145678930909977515477814333352822673052762874570607430216836329011194783644201243947550571441855372891247728448787370529113578618810086176188853577150",
"y": "395417099984442244638756744390111078524511811063010088402326830239234767674505289901170386046464850819433982868370974916347133372256693570657255650708",
"s": "15631517265093804497146095111709260751386125359365397270530768547181459003252256879771762058207937923094708070954355837726192459549"
},
"15631517265093804497146095111709260751386125359365397270530768547181459003252256879771762058207937923094708070954355837726192459549": {
"a": "5821252966757880247282747452768371770972354020331861859430369334764414645617746899900625058217375754906560844415304381027510013857",
"b": "5258167272980881703629299369656906930083073907957840023640512803280745023057495955117477336885256183415913411524753548486931818879",
"x": "12731454928270204972950086958239076018457036690563809502746636062032725432956938560806469531775066646052010754501466992985355842369",
"y": "13473967815581406370800640807593284145402991383957758919893620354666438341256752722357059403071072373183193932022519075246278005201",
"s": "235940307690240362512016167235845872598353640031476744408180410356781280602168597579105461105384418714103242611383460770965197"
},
"235940307690240362512016167235845872598353640031476744408180410356781280602168597579105461105384418714103242611383460770965197": {
"a": "19740431802108517051589693337714680283177865925928191966627466761975263479473877839085031992119140184436688368530744134924239",
"b": "0",
"x": "136305725593132874309039197997957392722765036457220920416371591431876162050333161386881963823803376825556573585153035698617328",
"y": "200455961289062723760710667405044048674460848316196558993291742969398237488479368088852494796038487557751778758586740154062119",
"s": "401441996845909976846617450191321678245107702203515793606916774704450521545753786389539190245437809501194520190342285993"
},
"401441996845909976846617450191321678245107702203515793606916774704450521545753786389539190245437809501194520190342285993": {
"a": "203519377899077755477094285287768057827760483143033300133825560716607328387726118669164515109147678931077980559447226219",
"b": "0",
"x": "297074793804435515929745770726754394908698521303783899240115022553917220728696050618967191770779741539848388451141805452",
"y": "305710277057159536234685694587034078018392677146627502501476173032012305142578742005773542865306085758035086242311372371",
"s": "645149558751025942996790371504628975272203984597541982776433413661811048942421769894138765495790066350441018473"
},
"645149558751025942996790371504628975272203984597541982776433413661811048942421769894138765495790066350441018473": {
"a": "0",
"b": "9320239585403671612111435020050314824180525649047823941522125419253399454451422520098975794263914076694399917",
"x": "113000453756529869135068539381096317139516470323222176683438812549126323203613391387916808851407277544288779983",
"y": "227274520164644117683917948141192357899082545218801553296730323889450384897463672833775698823054959509319069819",
"s": "25591450248043649089783333548581683637563753421990311166905462800731296741455655009012113613"
},
"25591450248043649089783333548581683637563753421990311166905462800731296741455655009012113613": {
"a": "0",
"b": "19687019878807072913434457904425069602992604960146688616479008430496152678802208449902083489",
"x": "21029496105348547000033739991479230014139133330970098617852550270718694626327599082990860913",
"y": "1846386958299244693428373682464388521955852454844068571064416105370364305704715785830640149",
"s": "10724358301345091845970569856543457943227015179648006529035551352514531914699602093"
},
"10724358301345091845970569856543457943227015179648006529035551352514531914699602093": {
"a": "0",
"b": "1459347561369210545626394902429084190700740590168246829397575927806946770944000641",
"x": "8114074345263209741640433626152673794584690681407261466249861319660208827880018789",
"y": "2395749498304222592247723445565372848013818676209787782061312837140374935970507354",
"s": "3036341534922166434306503356892258760823035644912853404968632662645344589724481"
},
"3036341534922166434306503356892258760823035644912853404968632662645344589724481": {
"a": "0",
"b": "2531461110426778624930000417934016952338779290126416661085639935045519797026405",
"x": "476109649885995613319024807542943124053375666154761988522067850784899107848394",
"y": "961231695858942634792972538526274228494952059396958715828844218611869362468404",
"s": "688044762048984009586789793086847668440019441714736173794864923748885561427"
},
"688044762048984009586789793086847668440019441714736173794864923748885561427": {
"a": "0",
"b": "587985461330892464577083442005624132967284021341351788651140068200770151387",
"x": "225571328441662055371745756141290742293769846020713057358181740131559586616",
"y": "418829540824666394297217073532266372182941915818283133828705281706081238628",
"s": "134550534057650170837670156561593932414553325888373204868335650431"
},
"134550534057650170837670156561593932414553325888373204868335650431": {
"a": "12475659059329942726060094405307591327094581036951639140298587539",
"b": "51483171964626574247878895884252444695210349080359104746297563045",
"x": "69289220620194039915661833117631556838679677331171608576853114831",
"y": "66196358882304065024974435487162190719707017971037854648052289696",
"s": "290415252526915050408246041003581747959721207146635219"
},
"290415252526915050408246041003581747959721207146635219": {
"a": "79768027125655460863766695314735497321755541901506358",
"b": "225507695217230558580215171498206424541598156603148242",
"x": "241170967449878033331494913520232551703430032948884759",
"y": "19712779607855197285499482024140064724667711585216901",
"s": "4879698437820970350470403111390167715813625688027"
},
"4879698437820970350470403111390167715813625688027": {
"a": "2886320366206757202348732672587022676906346930282",
"b": "543079231074615558570245808644094127398653935863",
"x": "1526112042158133791095205706464413821751006182898",
"y": "3279870144809323826893695465882470876740722214945",
"s": "398082757205169713694762797485619957805722833"
},
"398082757205169713694762797485619957805722833": {
"a": "0",
"b": "314329657351206258493210433198303606322429680",
"x": "396977739833473671556392317597064262161189573",
"y": "380726887920034897460270663395448551874512710",
"s": "110307921567191189197709869899947667793"
},
"181709681073901722637330951972001133588410340171829515070372549795146003961539585716195755291692375963310293709091662304773755859649779": {
"a": "73679058725289244379506759206167624555839097318232147972800023479761391371799567901532765676171876473346926641487872323219887704906132",
"b": "175092741376227744109246075340432191380369104908472348351108696352384260483633406199835971730768905500093884700938443386739860940526974",
"x": "111113260501528862070712167131124071984430414923514253339447797778503566122390076721325068019587196536233930997176613147602706557557621",
"y": "26582829926368118832405377767670135913131064965995438758532520594939709989096805079609359672854537280890739552347337549292008641407269",
"s": "826102416354976389440052588941195507317658841040388832092023216604562007317185449296661471814258691280816951490659149707"
},
"826102416354976389440052588941195507317658841040388832092023216604562007317185449296661471814258691280816951490659149707": {
"a": "430681937464722753851370115944375040271641800855847385684420356537287334415297987993488936510330175245109398511724463469",
"b": "355569647036610820172153710706969439707919907121347491979004011670443783410327589989128833232818849006523241529244685650",
"x": "4045929811791528953345993700063601007502654046813695642197904158528992830558396192253070343330902617248077135666452688",
"y": "506784931489869116116159960897887335059220174274558206688387175506521117306956590506841847236708191210347948605151427046",
"s": "53629084416708412713584302060581375442590161064683772532590432344043938622785458628678673597530543156110649722418171"
},
"53629084416708412713584302060581375442590161064683772532590432344043938622785458628678673597530543156110649722418171": {
"a": "9064739007105572827187299211130355277149822045661523975685384010347014634036377150157057280593658392197624328309940",
"b": "45905140012593405735184379288313597156545819300623058818609504523659589918500388290190547891145296697603571589784734",
"x": "29820068773356845434165949354430240220856571729188949163664429005265912750557717052101644157609938051113048388074093",
"y": "37653704833959156728180638110175510476391492384455941604304350930007794187561423753419666907892698099129368589508740",
"s": "60087094449440068759883975700172984704236956847673024722823703127242044249263385351802645877998800865190797"
},
"60087094449440068759883975700172984704236956847673024722823703127242044249263385351802645877998800865190797": {
"a": "0",
"b": "21682594586720026111211567960190709796420379642964607253328865873432570044097587853151045546586946374880148",
"x": "9613763444908169379789586617303075335528567243543334148466115083098398962946758238325594121558706597563400",
"y": "144359979618177389870432751720751832838323367093008385936856058325749406978821590971804714880942502320342",
"s": "32975443356732122488585892424376438021244345004724033473567868520583801485046027280894630217358508699"
},
"32975443356732122488585892424376438021244345004724033473567868520583801485046027280894630217358508699": {
"a": "18231342171055252498469742820659633044283332275671647960417293098323931309692834046391038053492493325",
"b": "28748199304804086725194288031454185956341289451660354024025228096458537346364904820330472751047871098",
"x": "116582730447777659685321860828778669126532474722087397915652016973724310082366524777177438763925955",
"y": "22068455727142610496225811933205147221438022690849051569132962351987192452854087051632078655066019373",
"s": "106611972911372867348981531085562337509434976182911642622163215459256577211110993318548241201"
},
"106611972911372867348981531085562337509434976182911642622163215459256577211110993318548241201": {
"a": "50805413652226287904689004813186457359751769482336553608424327846390446079325456293094493434",
"b": "0",
"x": "31635625966454541703304217574636896498034741009256061989912287567081204040572557475923744286",
"y": "56190427222174856253727870766102012536894438911017197083663880887075505072948455288167271047",
"s": "64278015285057428994869826082586636108042199719441913853955704126706790593173753777"
},
"64278015285057428994869826082586636108042199719441913853955704126706790593173753777": {
"a": "57794062403913776164961717256196470216338521164361118096073170254181566192318655346",
"b": "20040639378667426307983373005717015675674079676035057480639683738367087431760776994",
"x": "11044092815858201413003321289848149066886354186828503036403711194566437023330056151",
"y": "28465217889020893069319857446543159013574395854515572259388704295267354853234518093",
"s": "285085822374949234683569919069081053750367887240853360750706578263872386077291"
},
"285085822374949234683569919069081053750367887240853360750706578263872386077291": {
"a": "213742499240456448067111866571131740893998057686278452369595850971084817339672",
"b": "114254079292288546921377820976886408060437131766962979540159745202006168997147",
"x": "30222265718265390909458224507816751254792623350366183425454354218278266119532",
"y": "222312655235197371470147057329475562953254043241580217164522581948628297056980",
"s": "19385662100483683468887263692594838987112600320449890219566705387"
},
"19385662100483683468887263692594838987112600320449890219566705387": {
"a": "8581668887864113820757256127566682481628718098323587607384205891",
"b": "11239862911711952278144106528966381418296718366834381364686748736",
"x": "12447519327525329412787445790027563558286690699955200546388520515",
"y": "8450385981280266742890163827756048529662206516545717681224606906",
"s": "4449314230085766231096457124763497939922060733781614567523479"
},
"4449314230085766231096457124763497939922060733781614567523479": {
"a": "0",
"b": "1595731914396293031327993431821055742781590366172585826764982",
"x": "701647394878341077279486676190579328932837510172569545500196",
"y": "861205652716690947588787290376741609527948512425545545929633",
"s": "413638920165861017052454786089148936785517763832277"
},
"413638920165861017052454786089148936785517763832277": {
"a": "0",
"b": "248086082181328422679757237369816563141884113202878",
"x": "262509515326007850153250544470078727160840027403717",
"y": "241685977439964230767871395533480274405880697087039",
"s": "21849734118220080648804388887598414958497"
},
"21849734118220080648804388887598414958497": {
"a": "20766925553506776634376460034102612632368",
"b": "0",
"x": "21310905881356097146154675926802941631683",
"y": "13191498778461612017541373041514542555475",
"s": "195059046191794749398522364385771621"
},
"14474011154664524427946373126085988481603263447650325797860494125407373907997": {
"a": "218559057886424893276547823946262570936051113154510078366472261705525539281",
"b": "0",
"x": "13447682409133518145362353529567859293369288715395538342941634858116374334228",
"y": "9217473985071980564851230179287069894699512610022597405651885909452366368033",
"s": "57742680060417628490514685499656865291243992150831587188998643802542089"
},
"57742680060417628490514685499656865291243992150831587188998643802542089": {
"a": "0",
"b": "22349014150741764125621739232357604284505244876977623700824120227379465",
"x": "36927591203599636531486054811819207464871360670212038181004668856901281",
"y": "27496699662785794669392575270749088218905247714875233855171272046316122",
"s": "232995920785134906569964876706964393924293369021937885677845161371"
},
"232995920785134906569964876706964393924293369021937885677845161371": {
"a": "217632174562305104611926023967619032626962000780825670087031584678",
"b": "187094562303458047218392626759177002389267419133694652618633795187",
"x": "112066046920960462690391554726074418665811434746538163050420817806",
"y": "85148422883565627577683762557693344343243847989127667948227181092",
"s": "667782295678355182052577675351708539193806177910497486743321"
},
"667782295678355182052577675351708539193806177910497486743321": {
"a": "0",
"b": "177820135656007062258810263623035086037845644035845140297914",
"x": "410991732428779826100507289123400118390619593621432793966883",
"y": "323712067519605953438336454553060278422478829415244930713011",
"s": "33977045077680676101724092025040852892669746324768887"
},
"33977045077680676101724092025040852892669746324768887": {
"a": "33477292660317707650021715091153779549112071928048760",
"b": "20937476291172155876478665553477290373299458304750197",
"x": "31878451717442469883046801715444186732443328384649499",
"y": "32314746009347690337332125755943324582210086206150783",
"s": "779361525774857236942015147866527114595077844983"
},
"779361525774857236942015147866527114595077844983": {
"a": "513811535891317960571196399805946951709870082973",
"b": "411254235421784897639319441799742214566388855103",
"x": "557481184230632257559339264177984186504689809251",
"y": "82968570863515216194613183514323900862955428466",
"s": "730047403079947036543397202366241757"
},
"730047403079947036543397202366241757": {
"a": "22836352610316365820582294338150734",
"b": "0",
"x": "726203474496356729982214867715484108",
"y": "713073823632413946682692095044061769",
"s": "524807667301556714027468701"
},
"524807667301556714027468701": {
"a": "0",
"b": "466486506333723792134487630",
"x": "105600360701297633837980455",
"y": "350608156821391059892968971",
"s": "2974828777533058309"
},
"2974828777533058309": {
"a": "0",
"b": "1800429663946761670",
"x": "2011944969889055383",
"y": "822731774827936726",
"s": "40116225091"
},
"181709681073901722637330951972001133588410340171829515070372549795160160121825800627002436557645897001734148521830156375752993149532941": {
"a": "22923093493973181942622808983604344118088674195623182674061230600352291462676111582493562315647133899867682740186728092704641758348213",
"b": "150060192399443081631399984670244438919978160188369026737626483607731767797594400623232568646114626471807358766003319002729634320410401",
"x": "138752722822455161889145865469793873363622774233976805801454510972039066517152735282491890760043910372996350948795948243637010628785061",
"y": "171949088625072506800528814915070669593882669467915880545572678792731795748417880891742334656661914232762843606153454049334157050803902",
"s": "5449210414109881796139524141400020205939501038213588943075715062658210038759230006362343161549463176589895431216926010279147011"
},
"5449210414109881796139524141400020205939501038213588943075715062658210038759230006362343161549463176589895431216926010279147011": {
"a": "2400998704673758137954810082732846904755907013558255705153274209333474555476389490630018618010306045586362645367457659569638648",
"b": "1673543285068938997749419464320178799372484827862614967291939748355017888461259561116608188540336841830336699999785882592719215",
"x": "2021682692930588998535193845581882077308668766273670216443903599112624058916397136886467734470722717095203809470874607484238908",
"y": "2513722608924730234554986863650740041607419975760542874810937782681466587480598058245844849557389469078725362163016421920946854",
"s": "17451322694842248556100598687598542862622180284557309298501579068593777986449696359502380327456582859639222938739273223637"
},
"17451322694842248556100598687598542862622180284557309298501579068593777986449696359502380327456582859639222938739273223637": {
"a": "17017919293714509965167627159493377295299497153386989505487854581439241262468662477537704632698696213834358174004678471868",
"b": "1677706829215613710630578886601115085444688144960607071156052445265051254902217899020094517652315865758613077232789774260",
"x": "14834271521482153558785775722016943209652966245336359023459698304574042098572797734441285064431225712640864997276982447462",
"y": "14301842772477701863971230934942505032293231735313623391137286494539233461374318853940321952460017194185768912892624465956",
"s": "37203872674212814504371299746579076267251406178778294656219005152596324488949637759208322041000844676050319097"
},
"37203872674212814504371299746579076267251406178778294656219005152596324488949637759208322041000844676050319097": {
"a": "25017842025394949256614998059357724086059477437192770682063217773973044167639873498130496461663479750888369467",
"b": "0",
"x": "8369339808614154849109125813386590622446229050662237256938454995985364601821802829566009539526425348933867923",
"y": "25591856713324150977537334298089124166674977360617442401637356181904325853141801579899640809453472813097678424",
"s": "77247950673608360529256300506605065205449637149607660419557131655007299533674598766317283885179297"
},
"77247950673608360529256300506605065205449637149607660419557131655007299533674598766317283885179297": {
"a": "46851695597957690745294610070510880309310494789579485956649213101301592394648616572276098530963734",
"b": "73509441113382501662754549810583188325292972612856287145414352172642741596204772976737504394272662",
"x": "34912397233196962291026174339775578217416428366115420077064430605454903751650156217176333077668665",
"y": "3023348678357848212447781164556349746892667578588881385122608043160570369478347359161000422365164",
"s": "1412539351925849056497550307901117579289675984470803186954751889874791644847820200441"
},
"1412539351925849056497550307901117579289675984470803186954751889874791644847820200441": {
"a": "1341818115087061770996568248040671984360664257438020071058117453517690933764848526164",
"b": "0",
"x": "514723070992001189325987227560794368055264212974723096987876880759958112189433875411",
"y": "1315135526490751045631598956472631634755544374462619151129207607622974333768279098337",
"s": "70226675545682065054069320269519617146747222792176478154164077262732555282835753"
},
"70226675545682065054069320269519617146747222792176478154164077262732555282835753": {
"a": "61926435030590324636854664363494451537779749032046415289474121301107779981364007",
"b": "38374781216885190469734257168554716650760206735937134413765119726835740954127433",
"x": "20086717341527145177121720354391287501860848702523576042681099242790656255078744",
"y": "15180626731603542804098814464164424317264389970098000046034236080176987349302320",
"s": "1229458605491632791562838240012598339403754040210497652317308773373138810307"
},
"1229458605491632791562838240012598339403754040210497652317308773373138810307": {
"a": "463313476773773734206441477678237873076266297746300860062425646781565046727",
"b": "1014712997002787002223206911192286314050047701877202453433167819671954466382",
"x": "1007040211484748679467876416370454218080291202618616027828036435288021010696",
"y": "598222179447888364570308989207090651885428547812987574032945365967583604724",
"s": "15816930007048101676306740982014951231274244153404954052173925448889"
},
"15816930007048101676306740982014951231274244153404954052173925448889": {
"a": "0",
"b": "15583645257803772079480757673453546054232374807128338146502257330889",
"x": "7557548028332852310853456451925870546165658635088894995384547909929",
"y": "4374958096308976161673410564001780894770090277768261702429086641856",
"s": "4837690818213538100313902024782927129549091140014448699"
},
"4837690818213538100313902024782927129549091140014448699": {
"a": "0",
"b": "479097062372482605174608414768482859538744394025676235",
"x": "2539351639466705696847681411153818447685870106994837142",
"y": "3442939001838063970709703445476337509216530067609822895",
"s": "4488650679598134184438400616904046069470676023"
},
"4488650679598134184438400616904046069470676023": {
"a": "0",
"b": "2086786987895988481543207918670334204179127181",
"x": "4193313386541303154748052890160699563764114878",
"y": "1453164676851540459756425193524725117233243303",
"s": "2224071754746032684215346498685626377"
},
"2224071754746032684215346498685626377": {
"a": "0",
"b": "668331579133324424145734384837976145",
"x": "55583668113240921005610356628471981",
"y": "1020681863002443269420642563661107256",
"s": "28980776810211129121767567137941"
},
"28980776810211129121767567137941": {
"a": "0",
"b": "19884460490808942299382189233155",
"x": "15203402048195593743802479694047",
"y": "21057576801585944690003833458108",
"s": "133331386370985889930419907"
},
"133331386370985889930419907": {
"a": "0",
"b": "53183306083418359299404032",
"x": "94511888152880915964153355",
"y": "62358944020105736589936305",
"s": "517202257497439"
},
"517202257497439": {
"a": "0",
"b": "105126150221113",
"x": "177347787734031",
"y": "443951264024858",
"s": "78685868263"
}
}
}