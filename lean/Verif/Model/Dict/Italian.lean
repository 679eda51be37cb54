/-
Generated from bip39/src/dicts/bip39_italian.txt.
-/
namespace KC.Bip39.DictData

set_option maxRecDepth 100000 in
/-- bip39/src/dicts/bip39_italian.txt: the 2048 words in order, each as the number whose base 2^21 digits, least
significant first, are the code points of the word. -/
def italianCodes : List Nat := [
  2147053168749839673618071649, 19803070668711706026785083145899190171096580193, 19803071604487768846489977099013848531336167521, 1953625194408841224382316641, 4502697156435239613280004633264225, 8592134389145116831404142742802630967393, 19803071774629276825609581249210199811123314785, 19803071604487768846354577462557312653641908321,
  18019011818464297793781288913952754908241330273, 9442840144188282874850221383103478235233, 19803071604487768846586691275263487705618579553, 8592134226885956059143249287939767664737, 8592134145756259615995769010739113623649, 2147053177973246894847033441, 1876253951176929770616127585, 931561077099842240609,
  19803070158288033951016480180170952337497522273, 17305388142252339054405862950451525830997704801, 2147053325547252261081579617, 4502696963006997794439710055071841, 19803071604488093364811521731481143534491271265, 4097048848305290628286521188286561, 19803071604487768846625376772363956119337435233, 8592134389145116831459482931043298705505,
  1953625157515370669153452129, 18019011818464135534813944885654829875756793953, 8592134389144962088899232096656551837793, 18019011308040909671611737306026580399154528353, 9442840387577314175548949488065411285089, 9442840347012475625469388294251532517473, 19803071604488296188888215554975394215418134625, 17305387546758927109644683069148166310447808609,
  2147053316323853835954028641, 19803071094064218464869510959699833017688129633, 1953625212855567705916309601, 4097048983704973201757349953405025, 8592134145756317644555014336224480460897, 19803070668711340943547617107628419578383564897, 1953625175962114742869295201, 8592134389144962088973019020174838202465,
  19803071008994356901496683478791294651700609121, 19803070923923602911869181474784399824842129505, 19803071604487931105747463609943940853563129953, 4502697291834995973775506752405601, 17305386781123560972559190320729764997789384801, 2147053325547164300170231905, 9442840306447675760905374286536813576289, 19803071604487768846567348314575696651119231073,
  1023794727099664695393, 4097048848305345968509946240696417, 931561011129163448417, 19803070158288033951016480235511118587947384929, 18019011478182336521344383669052048986576257121, 894667536175883878497, 8251852022224042968184407657460961116257, 8592134470274851959974936490131951976545,
  2030996280843498420384563297, 19803071604488296188965586761313883492477567073, 19803071604487768846354577333430077749416951905, 9442840306447424304371787975796358905953, 9442840468706662447995817187388197699681, 17305387461688173120036523896701823235827695713, 19803071774629276825609581433677614159960735841, 4502697059721044916918746896924769,
  9442840144188108789550643673352607105121, 3934789378047816999398535833059425, 18019011818464906266359540697666529649752014945, 17305387631828950932468424970764147209453699169, 9442840144188360246102676794137468993633, 19803070668711340943334846237163278313088614497, 8592134551404509717551529392992795230305, 4502697059721127927302262961995873,
  9442840063058663803056653604944170975329, 4097048945019227070345096237940833, 17305387546758196942860265927444942282045784161, 8251852103353816782565896513660949364833, 8251851859964824167530289578174171840609, 4502697175777960493362916578295905, 9442840387576946662219690459683241328737, 1876253775932808293838225505,
  8251851413751890258445995605194010787937, 17305388142253069221286994148500429409301299297, 2147053168749874858013229153, 9442840347012475625395601348743034568801, 8251851454316806179695001822127749857377, 18019011818464135534775259157970060540689514593, 19803071604488093365043635581080912287020089441, 1953625175962141131160944737,
  2147053224090137865467461729, 18019011818464135534601173867615683244235685985, 9442840387577024033416805647292177580129, 19803070243358990764411190776489753523318161505, 18019010797617034771959868749399441395119292513, 17305388142253069221286994074713435522279145569, 17305387206476113975578882390341166065745133665, 3934789668190188950912267309809761,
  894667522981748539489, 8251851778835321152495500893169716822113, 3934789668190142834060879128952929, 4097048945019227070248339218890849, 3934789416733600024338519400906849, 4502697021035483252819686921863265, 4502697021035418689224225031454817, 18019011818464135534659202334627261972769407073,
  9442840387577294832883409610986355687521, 1876253877389918291428900961, 18019011818464135534562488176824402056570732641, 19803071604487768846296548967875560639966478433, 1023794779876227022945, 19803070668711340943547617292095891101819338849, 9442840103623366953564321765983273353313, 19803071264205726443892401118113928685702611041,
  968454600431656501345, 9442839697975174880586253457686729326689, 17305387972111966890668947949300252143467364449, 1953625046834932615200374881, 18019011818464460053328917510909880596017709153, 19803071604488093365159692367530209513389949025, 19803070668711503202689046758322220787231096929, 9442839738540110144749830631878991806561,
  9442840387577198118817840480234801987681, 4097048828962422174281805940654177, 8251851413751890258298421635012158816353, 18019010627476175829850867276407092019892060257, 17305388142253069221403050907279579738785448033, 17305386696052604159009737256393704658270421089, 9442839941363974067472275308431848505441, 8251852022224410481771921058894626947169,
  4502697291834995973687545845252193, 9442840306447675760979161262831664365665, 19803070668712111675015841870098945905776394337, 4502697175777960493371712681803873, 8592134145756201587602544355528893530209, 9442840387577198118670266488062711169121, 4097048867648048401901561023823969, 4502697175778071173849349078646881,
  894667549370035994721, 8251851657140902216303939781968820961377, 4097048964362077077614533906792545, 19803071604487768846296548930982090084741808225, 8251851576011263801641917875948919717985, 9442840387577294832828069427143747043425, 19803070158288033951055165769505136721746985057, 1023794801866467967073,
  18019010542405584099577565802782599664952672353, 9442840063058605774654205608483402809441, 19803071604488539578190315554286801392534290529, 9442840387577159433136272522705484382305, 4259308241191391898058934903111777, 19803070158288033951171222786538660102691356769, 9442840387577159433007145327383657054305, 2147053270206967263428345953,
  1876253868166572642863677537, 19803071604487768846567348351469246371204169825, 2147053307100486197173026913, 19803070668711503202689046629195025465410060385, 931561081497922306145, 19803071604488580142835437594943445275752005729, 9442839738540168173216842263384087855201, 894667597748549714017,
  19803071604488580142874123128937397438841356385, 4097048654877104149784000882278497, 19803071604488539577803459375020543155111985249, 9442839697975174880604700201760447266913, 9442840103623560381649343202486499934305, 9442839697975174880521689915001405440097, 2147053270206993651709509729, 3934789687532863714249344179765345,
  18019011818464135534852630410425427594210967649, 9442840144188360246194910514506033528929, 9442840387577101404724601211382455599201, 8592134145756046845162197353223216431201, 9442839941364148152744183034013575807073, 8251851657140979587602512004808561393761, 8251852103354010210650918077707528962145, 19803071008994194642316568340220467434783506529,
  9442840144188282874997795410459983085665, 19803071604487768846722090902496713119149064289, 1953625175962097150714708065, 18019011818464460053251546295348058864547266657, 4502697156435147379616810732093537, 37788606673116039046945712278866812816594545705746529, 4097048867648103742142578262278241, 2147053325547225872850747489,
  4502697040378268696630002154733665, 9442840306447637075463614164693464121441, 4097048828962385280723289745916002, 9442840144188031418261294796161425604706, 4502697059721081810362913827848290, 1023794731497688137826, 8251852062789191003310683671296821166178, 17305388142252339054599291026249572705166688354,
  9442840387576946662182796993526029615202, 1876253941953522549385068642, 8592134226885956058986451994099557859426, 2147053177973260088982372450, 3934789590818798145043825791336546, 8251852103353662040042539145431363879010, 9442840144188031418473432392591504048226, 9442840144188186160756982140639398330466,
  8592134389145116831330355762109744152674, 17305386781123398713553160481736753084826124386, 9442840306447308247465434881673278783586, 1876253785156237505272479842, 19803071094064786372667241029406882676233732194, 8592134186321252908644804525325799129186, 9442839697975058823661453667868442886242, 19803070158288033951016480180170956735539839074,
  2147053316323871428129587298, 8251852103354010210706258309928615673954, 9442840387577333518500413964257668890722, 1953625120621935298286190690, 894667606544604987490, 3934789687532955947978508780699746, 2147053168749848469717385314, 1876253812826300839287062626,
  4502696963006997794488088568791138, 1876253960400279817242542178, 1876253794379591949949599842, 18019011308041153060913837425241872433865031778, 9442840144188147475195318081161846063202, 8251851859964901538856531947910779109474, 931561077099846434914, 8251851859964901538727404756986998292578,
  894667597748520353890, 3934789706875713721492393533898850, 968454499276576260194, 4097048867648103742120587994071138, 4502696866292950672035440031170658, 894667540573924098146, 17305387206475911151695616661091825079950508130, 2147053159526520413336109154,
  19803070923923602911869181530124614453788934242, 9442839860234567766604512938943309676642, 4097048674219880370112328051458146, 18019011818464135534659202334627301555177521250, 18019011988605846337565357945589625481827713122, 1876253923506818058110894178, 19803071604488539578074258620263635139357048930, 9442840387577294832735835711173226922082,
  19803071094064745807751319706613729030091833442, 8592134470274851960104063742628377657442, 8932416756066287408698670352922981695586, 19803071434347274987695813110438546333319037026, 4502696866292996788873634078785634, 3934789706875815178580400896213090, 9442840387577101404669260943976944369762, 19803070158288033950900423301487930344564850786,
  2147053177973286477290799202, 2147053168749918838482534498, 19803070158288033951055165732611652972368101474, 9442840144188186160923002868089139232866, 9442840063058663803250344435310313603170, 9442839941363974067370818216026445971554, 9442840225317824575382110527725590544482, 1876253877389883107065200738,
  3934789378047936903169044260061282, 8251852022224410481790367802968336498786, 17305387461688051425598244845909943017076162658, 19803071604488539577880830664369301599012520034, 3934789822932749201834614995288162, 8251851657140863530603925119948206112866, 37788607029928727858517865739737250056574399087116386, 18019011818464135534504459820493226197653651554,
  19803070923923602911869181419444154409597010018, 2147053177973273283157557346, 17305387631829113192016053687625030211490283618, 4502697021035483252890055674429538, 2147053270207020039984382050, 8592134226885956058977228578082279915618, 894667522981763219554, 4502697059721081810367311916302434,
  8592134226885956059014122083821885063266, 1023794757886009147490, 2147053159526516015314763874, 2147053270206993651711606882, 8592134226885956059069462368819571851362, 17305386696053009807143781905800988390835880034, 8251851778835379181063969674254828437602, 1876253941953566529892122722,
  9442840387577314175548949479269307777123, 4502696846950248238657019383382115, 19803071434346585386001402480425778434281570403, 9442840063058663803038206816889973244003, 8592134429710129466774058313912961466467, 9442840306447327590343112293609778446435, 2147053260983608420675354723, 8251851657140979587556395113837919993955,
  8251852062789229688909241262902266036323, 17305388142252339054715347868039128540937977955, 8251851657140689445304347375012908367971, 9442840144188186160858439233044800864355, 3934789552133264151100458795008099, 8592134145756046845116080462252577128547, 3934789629504387479232608055853155, 8251851778835185752794480731043779313763,
  931561059507652001891, 4502697059721081810411292339470435, 9442840387577314175641183243618320646243, 8251851859964901538801191715689642066019, 4097048654877030362790113820278883, 9442840063058605774617312076355482943587, 19803070923923602912198009297719570164256604259, 19803071434346909904439004157596783297683259491,
  9442840306447385618847017417660333817955, 1876253923506809262001094755, 8251851778835495237942652665461418754147, 18019010542405259581217335470300660233337307235, 17305388057182477490897635620948837565045145699, 2147053177973286477261439075, 8251851819400275759527532133649875992675, 17305387631828788673385024017666296019247169635,
  19803071604488539577880830627475870626162409571, 36292028282865688388294943573550819816910999301128291, 19803070668711340943334846163376297620180828259, 8251852103353662039959528827885996474467, 8251851819400256416677524815833708101731, 1023794801866432315491, 8592134226885956059134025977475559850083, 19803070923923481217450245292446621078361473123,
  8592134145756046845162197348825130074211, 8251852103354010210577131101412648812643, 3934789590818798145079010163425379, 8592134186320866052437868085007114829923, 2147053325547252261077385315, 9442840063058605774654205590891181113443, 18019011308040909671611737379813547897897615459, 8251852103353662040097879342468128833635,
  4502697021035381795731679546966115, 8592134389144981431647782286882947203171, 37788606673115698764781615610525156500573096542994531, 894667571360241287267, 4097048867648103742164568450793571, 41530049972653682859175918422743224225747970874671203, 17305386696052604159183822472961193620789002339, 8592134389144962088816221735130721419363,
  2147053325547239066946240611, 4097048848305345968580314970194019, 19803070923923481217450245310893360754032902243, 3934789494104824809624646696566883, 2147053288653755317573648483, 1023794806264487215203, 1876253868166528662375497827, 4502697137092260478749274464583779,
  3934789378047835446111823208644707, 18019011818464297793781288950846269443949985891, 8251852022224100996697536144752269852771, 1876253886613290328271093859, 19803070498570765955501894774648006170231439459, 17305387972111845195843812608561622856727789667, 1023794722701611892835, 19803071008994356901496683460344497801437118563,
  8592134389144962088954572262906993311843, 2147053270206958467314352227, 19803071434346707080478367277349132479439568995, 19803070923923602912198009399176658171629404259, 1876253785156237505289257059, 8932416796630990559104881447944956412003, 9442839697975174880567806797175888805987, 41530050151059644446812431189548167838906566490194019,
  4502696904978549229653433755107427, 8251852103354029553427138432422973014115, 4097048828962422174299398112018531, 19803070158288033951151879964201436406840557667, 8251851413751890258409102134638775631971, 2147053307100481799111835747, 2147053168749848469738356835, 9442839738540168173032374756676286283875,
  4097048654877104149713632129712227, 18019011988605846337642729345618857164093259875, 8592134186321136851784568216620254625891, 8592134389144962088899232057074156306531, 9442840387576946662173573643479436755043, 4097048945019356197492039559938147, 9442840347012398254281496588630632693859, 41530051221494733412278667006809683222712506290012259,
  1876253997293767964682616931, 894667566962215747683, 3934789706875676828052624639000675, 19803070243358828505134361655360135090415861859, 4502696866293006012298447497986147, 20338288213194398580067934869739232437987180643, 4097048867648159082392391553908835, 9442840347012282197282909756546841837667,
  18019011818464825136759811707989121161395961955, 17305387546758886544748104402671513308479094883, 37788606673115698764781615301040100562376639658328163, 8592133942932337664797089304256062685283, 19803071519417907282827007421397865134141997155, 37788606673116039046783453137437291250006250875781219, 9442840103623599067367804630571046404195, 19803071689558887919277573944176497865823092835,
  19803071094064461853823440525876407405239074915, 9442840387577275489922721863912304672867, 8592134226885956059041792243912901918819, 3934789494104834032983489432780899, 41530050507870887058527994912727916575128461026263139, 8251852346743060854088973018451167674467, 8251852103353662039968752195524834099299, 19803071604487768846277206154761744165359321187,
  8592133780672828721872476781652968734819, 8251851778835321152587734679508964343907, 2147053288653750919548108899, 9442839738539916716618692300007129743459, 3934789494104861703108396090130531, 8592134429709858667528815243918957346915, 9442839697975174880521689932593580998755, 18019011988605846337565358111610326543272771683,
  8251852022224410481771921142457504366691, 4502697175777886706474582674505827, 8592134389145039460225474321257670377571, 17305388142253109785951458965377331250975473763, 4502697175777886706399815890108515, 8592134389145039460077900386260180009059, 9442840347012398254253826441733749080163, 17305388142252663572978864227185574026659496035,
  1876253941953504957234675811, 9442840387577024033333795246183936950371, 8592134145756046845097633700586717184099, 2030996437640823046928334947, 9442839697975174880586253492871105609827, 1953625037611560578349793379, 8251851413751735515904191488492704890979, 17305388142252339054754033623394013986624110691,
  18019011308040585153193478589543445755133427811, 3934789378047983020117189464162403, 4097048945019300857220236025266275, 4502697021035566263159222536503395, 4502697059721081810380506055835747, 9442840387576946662164350271442594562147, 3934789552133264151113652976484451, 18019011818464703442282846957182644892727246947,
  8592134389145232888347389364655565570147, 2147053343993983140689346659, 9442840144188186160766205539064574115939, 8592133821237763986109840870567430848611, 1023794735895734648932, 2147053270206967263390597220, 8251852103353662040051762517468218654820, 19803071094064542983713311546240617037976043620,
  8251851778835185752840597591228053192804, 9442840347012398254263049853352986804324, 8592134389144962089028359274386186829924, 4502697175777886706465786552123492, 8932416837195790423438311154738301763684, 9442840306447385618902357676269741539428, 9442840387577314175696523423062899556452, 19803070668711787156558897481271216973140721764,
  4502697156435147379533247812730980, 9442840144188186160849215817027489366116, 9442840063058605774709545739549434445924, 9442840387577024033472145800348452257892, 19803071604487768846277206154761682592687194212, 19803071604488093365043635525740649279549079652, 8592134186321194880233133086459427815524, 2147053270206958467305963620,
  18019011818464135534562488176824393260458836068, 9442840144188186160793875624388779311204, 9442839941364264209622866007627988467812, 1876253941953535743532990564, 8251852346742828740368500475806789664868, 19803071604487768846606034033037137929801039972, 4502697137092435722839964931588196, 19803071604488093365140349646650095815119339620,
  17305388142252339054676662204917994250169221220, 18019011818464135534852630410425418798086488164, 3934789455419198581952115059458148, 41530051221496349752994198988901352048287939586687076, 9442840387577275489922721877106423234660, 41530049259030602140953642516897870751092119160488036, 18019011818464297793955374416444772615242907748, 41530051578307337153380784864771371985718703101575268,
  4502697175778015833683098620395620, 19803071434347356117411598849671631959230513252, 18019011818464176099497752358848205973322989668, 4502697137092288148847792844963940, 4502697156435110486058294541549668, 9442840347012514311067945846274565079140, 18019011818464460053328917547803329161003532388, 18019011308040585153406249589135791138340339812,
  9442839941364341580986001808337435361380, 19803070158288033951035822919497792517281153124, 18732636345382376659502196236056731047742668900, 9442840387577198118707160015792529997924, 8251851819400198388302746904697182879844, 4502697021035510922984175987327076, 18019011818464135534504459700589429300941291620, 931561077099854823524,
  9442840387577314175641183261210523467876, 4502697098406818718561460390199396, 9442839941364051438604826887384735940708, 19803071604487931105844177509492418922204364900, 8592134389144962088843891855639340646500, 9442840063058470374943961995155781714020, 19803071604488499013255051436826623723966562404, 17305388652676416778443910321947490122721132644,
  19803071094064218465062939201518642525951230052, 1023794806264495603812, 4502697059721008023470181890130020, 9442840387577159433044038885899799363684, 18019011818464297793781288987739814765975830628, 19803071604487768846567348406809504980590919780, 8592134226885956059069462298450815090788, 8592134470274851960011829951891098304612,
  18019011308040585153290192636665810442742923364, 1876253877389909495337975908, 1953625037611547384203968612, 4502697175777886706435000255905892, 17305386696052604159203165322968493844791820388, 18019011818464135534697887905514724273512513636, 9442840063058663803047430197722950402148, 1023794779876229120100,
  8592134389145116831413366128033652539492, 931561085895960428644, 8592134389145232888356612745488500785252, 4502697175778071173915319770021988, 8251851859964901538856532000687358214244, 2147053205643327821070729316, 4502696866292950672101410747711588, 4502696963006951677583923863355492,
  18019011818464135534813944784197680295785267300, 4097048828962348387239540415266916, 894667571360274841700, 2147053260983621614856831076, 8592133780672828721854030028783178743908, 19803071434347396682520948239039601180221112420, 2147053270206932079020605541, 9442840347012475625432494792909967589477,
  1023794731497692332133, 8932416796631067930274326409492152975461, 17305387206476316799907032627517987765010563173, 1876253923506760883495764069, 8251851778835379180916395677684651262053, 1953625120621882521734348901, 17305387206476519624003069199562433070375108709, 8592134389144962088816221748324858855525,
  17305387206476357364726239921635419642201636965, 968454538858990665829, 9442840103623560381649343246466937782373, 9442839941364051438641720371134104338533, 41530051221494733412116407846037182521580287147638885, 18019011818464460053116146723454964517094555749, 18019011988605846337565357991706428491503239269, 19803071604487768846277206200878547175022264421,
  4502697175778061950468516118265957, 8592134389144962088991465746656372195429, 4502696846950137558201373242163301, 1876253785156197922876948581, 1023794775478176317541, 894667593350488522853, 2147053316323880224245678181, 9442840387576946662182796967137775714405,
  8251851819400004960171608502456587124837, 4502697156435239613262412470288485, 2147053307100455410834866277, 9442840468706739819349729629254923059301, 18019011478182336521131612780140150453423833189, 19803070158288033951132537058853947942197264485, 2147053251760275966264344677, 19803070158288033951035822956391236684245631077,
  4502697137092444946168021340127333, 8251851657140766816639813024427437719653, 4259308241191253547482780117500005, 8251851413751812887211987056981006352485, 8592134389144962088954572324479654953061, 3934789571476021924759479093559397, 8592134470274755246084611353313852522597, 9442839860234567766604512912555045290085,
  19803070668711381508386167390103806999179296869, 8592134145756046844996176634569589522533, 4097048945019411537741852876734565, 18019011818464703442282846957182658086858391653, 4502696963007099251532115486965861, 894667518583710416997, 4502697156435202719761070922137701, 1953625046834888634739458149,
  8251852103353816782556673159216291119205, 8592134389145039460105570519962930380901, 19803070158288033951171222648188114734239711333, 931561063905734164581, 9442840468706739819340506257218078769253, 8592134470274851959974936529714383159397, 9442840144188302217681781952447923617893, 1953625129845219374248493157,
  8592134186321020794905885185831212154981, 18019011818464460053058118311783578427287666789, 894667522981759025253, 9442839941364225524033531796855520755813, 19803071604488093364830864664498818478476623973, 9442840387577101404577027210414265466981, 18019011988605846337642729244161782350885159013, 18019011818464297794090774089794823028664696933,
  2147053325547199484557000805, 9442839860234296967165579029787067809893, 19803071604487768846606034060707258438441238629, 2147053316323853835981291621, 9442840347012378911330032191603210190949, 19803071519417907282827007458291362077662511205, 8251852346742828740368500502195098091621, 1023794801866470064229,
  4502697156435110486119867213676645, 18019011818464135534678545092400920993051181157, 8251851657140902216303939812755148636261, 9442840347012398254299943367888722722917, 18019011818464135534813944811867879969229111397, 9442839697975174880512466516576271597669, 4502696846950137558236557631029349, 9442839697975368308726615245158336168037,
  1023794806264518672485, 19803070328429014587331646983482564520387280997, 3934789629504516606458716250701925, 2147053316323792263336427621, 17305388652676416778521281426828829819788066917, 9442840387576946662238137234543295332453, 9442840387577333518426626965972642168933, 3934789745561339949248488081981541,
  17305386696052604159280536547753665622867705958, 17305386781123398713359732369045090519885021286, 9442840306447462990025685720458072162406, 2147053168749888052127596646, 17305387206476276234933082773149598355774505062, 4097048828962348387287918884946022, 8251852022224023625380517226217323102310, 2147053205643384995639722086,
  17305387546758927109489940582684233451737972838, 931561077099838046310, 17305387461688051425520873464327455408497098854, 19803071519417745023724263479942137565172203622, 9442839697975020138016779255661142736998, 3934789494104714129160204430868582, 9442840347012398254318390107564348014694, 9442840063058605774764886042139298889830,
  18019011818464135534485116961262580325060444262, 1023794806264478826598, 19803071519417745023685577909054719244896305254, 4097048945019236293611579961770086, 3934789552133264151056478338285670, 931561015527195279462, 4502697175777886706408611955867750, 1876253905060047596113887334,
  4502697137092435722831168838565990, 8251851859964901538736628107033620512870, 8592134389145039460077900425842571346022, 19803071094064380724339768359541779892591919206, 19803071604488296188965586761313923074881486950, 2147053307100494993236688998, 8592134145756201587657884644924599566438, 8251852022224410481762697766022582108262,
  9442840468706739819349729646847092326502, 1876253941953570927905079398, 2147053177973299671409360998, 1876253775932790701643792486, 8251851657140689445415027799872763854950, 894667536175877587046, 19803071604487768846567348462149671231021908070, 1023794771080123514982,
  8251852346742828740331606992057425461350, 17305387972111926325830397712941773285461327974, 4097048945019300857268614511722598, 1953625175962141131152556134, 8592134145756046844996176652161760886886, 4502696846950137558258547840516198, 1953625129845307335157743718, 8592134226885956058986451945721069305958,
  19803070158288236774977117041971766723090579558, 2147053159526485228970311782, 3934789571476058818155267531735142, 9442839738539994087871147623080165113958, 8592134470274851960011830031055929213030, 4502697137092389606010566997966950, 4502696846950137558183781062410342, 17305387206475911151482845716839610762796204134,
  4502697156435202719765468962357350, 19803071604487768846567348314575705447218544742, 4502696963007043911326282631086182, 3934789706875639934560079173386342, 18019011818464703442128104470718690043782758502, 8592134389145232888236708873825016610918, 18019011988605846337642729216491688230544998502, 19803070158288033951171222648188119132279930982,
  1876253840496452134244450406, 8251851859964746796296281043155309035622, 9442840387577101404577027249996675678310, 36292029353302393693989933078188849204104433363845222, 8251852103354010210614024580764004253798, 8251851413751890258399878802184345747558, 9442839941363935381846047715065042305126, 1023794797468415164518,
  17305388652676903556351769214492996725899264102, 8592134389144962089028359291978402234470, 9442840387576946662109010070007778902118, 2147053316323871428158947430, 19803071519417907282749636067485379286959915110, 1876253886613255143919976550, 19803071094064542983732654488481606844215722086, 19803070923923481217450245292446541913559924838,
  36292029353302393693989932981474783634876924788998246, 8251852103353662040060985858718783504486, 4502696846950229791917343755993190, 2147053205643363005442818150, 19803071094064542983597254732121225691316355174, 4097048674219963380456261716803686, 8592134145756046845033070149105291886694, 3934789706875815178668361839018086,
  17305388142252339054599291026249568307162120294, 3934789494104861703042425405046886, 18019011988605846337642729244161773554796331110, 8592134226885840002200002710067375767654, 2147053343993956752410280038, 8592134470274851959974936507724156895334, 9442840387577314175548949518851768320102, 4502697156435202719809449440051302,
  931561059507693944934, 18019011478182336521131612780140146055394099302, 2147053168749901246309072998, 2147053159526542403593830502, 8592134226885956059023345508635297972326, 4097048945019356197518427851587686, 1023794801866474258534, 4097048828962422174290602044162150,
  19803071094064218464985567773819162791721828455, 1953625065281637106459869287, 9442839779105026065961943307888722182247, 8251851859964901538727404730598710837351, 9442840225317959975175364506977036140647, 9442840306447385618717890195950227423335, 1876253877389935883587682407, 17305387206476844142537384637931353041771954279,
  2147053159526542403551887463, 19803071094064218464927539454381567439192195175, 8592134226885956059198589577335496769639, 19803071604488539578074258629487007176195047527, 9442839941364148152799523266234662518887, 19803070158288033951132537160311053541714165863, 2147053325547247863030874215, 4502696963006970124411560414675047,
  4502696827607287550967119934914663, 17305387461688051425598244901250267597145899111, 1023794731497696526439, 17305387631829113191899996689038176137439608935, 2147053316323840641812398183, 9442840063058605774617312063161351798887, 9442840387576946662173573647877462294631, 931561059507660390503,
  18019011818464703442282847030969603595345854567, 9442839941363935381846047697472835289191, 19803071264205726444221228996389313654053404775, 2147053205643402587834155111, 19803070243358990764411190896393607594603708519, 19803070668711340943334846163376253639730397287, 1876253932730150512544972903, 4502697021035483252802094725333095,
  1876253794379583153864966247, 9442840306447598389689812491193603326055, 8592134389144962088816221721936590274663, 19803070923923481217450245190989511080789672039, 4502697059721164820764022095741031, 1953625212855629278571659367, 4502697175777886706456990475878503, 4097048867648103742182160645226599,
  8251852103353662040116326156910590951527, 19803070668712273934292671046568928501185904743, 9442840387576946662219690543246116651111, 4502697175778052727166848001376359, 9442840063058779859907666462448052863079, 8592134226885840002264566353907758923879, 2147053260983621614842151015, 1876253775932795099702886503,
  940784422748443115623, 4502697175777960493411295094112359, 8592134226885956059078685718866181488743, 4502696963006988571124847828009063, 1876253886613312318518329447, 9442840144188360246102676802933568307303, 8592134145756201587501087245531304951911, 2147053177973211710506401895,
  9442839697975174880457126249170766659687, 4502697040378305590008198394282087, 4097048674219963380394689065648231, 18019011818464135534813944885654768303134998631, 9442840347012398254336836772473256018023, 3934789494104926266637887289163879, 1876253785156180330703487079, 4097048732248338158310223654158439,
  8592134226885956059014122097016018305127, 4502696963006997794474894456520807, 3934789822932638521387764924022887, 3934789706875815178641973559951463, 4502697098406772601714470274728039, 19803071094064461853746069107400317300079853671, 2147053224090071894786572391, 4502697175778006610218702822441063,
  18019011818464135534504459857386679160706957415, 1023794744691869614183, 8592134389144962088825445067585191149671, 19803071604487768846489977182024210057168683113, 1876253886613316716539674729, 19803070158288033951171222731198427881531244649, 9442839941364148152771853106143639371881, 2147053251760249577966403689,
  894667588952425234537, 4502696846950137558254149783519337, 19803071094064380724223711480858793084004073577, 4097048867648011508422209674674281, 4502697137092260478771264695042153, 19803071604487768846567348406809469796214636649, 1953625175962079558507692137, 4502697156435110486084682826907753,
  19803070158288033950919766169941987836389490793, 18019011818464297793781289098420235227774320745, 9442840063058605774580418526635437850729, 19803071604488580143028865633847990808353964137, 9442839697975058823661453597499723874409, 4502697175778071173827358835605609, 4097048867647974614951654454198377, 9442840347012456282619381002823658373225,
  19803071604487768846451291528126460997408915561, 9442839697975058823532326450556408168553, 4502697175777923599936341810348137, 9442839860234374338445704486562847260777, 9442840387577275490014955584280848236649, 17305388142252866397307014492032498642362302569, 8592134389144962088899232008695642587241, 18019011818464135534485117044272845093896978537,
  19803071774629276825628924237568027811393831017, 9442840387577198118633372982323097632873, 19803070668711381508366824447862738028133875817, 9442840144188186160812322328880089137257, 19803071774629276825609581322997110135289020521, 9442840347012514311123286065301564686441, 19803071434347356117585684186142891430201262185, 19803070668711340943566960077539560679538688105,
  4502696827607435124818554568835177, 18019011478182093132177683103283045652938883177, 1876253840496408153777242217, 4097048828962477514452454413959273, 9442840387577101404595473936895778488425, 8932416837195906480316994088770356641897, 18019011818464135534659202279287025353594241129, 19803071604488539577958201824590921895684079721,
  19803070668711503202689046629194972688841441385, 9442840144188147475158424562228120256617, 8592134429709858667455028219245605421161, 9442839738540168173161501978386390581353, 19803071519417907283020435589429663163186413673, 9442839697975368308579041274976461127785, 8592134389145232888209038770908589719657, 37788606673115698765025004506426163431839590921535593,
  19803071604487768846296549013992425222286868585, 4502697059721008023456987761082473, 9442840387577314175548949545240032706665, 8592134186320943423607313068544583794793, 17305387206476357364706897126968391221781725289, 17305387631829113191745254368594975126517186665, 19803071604487768846586691090796121735336820841, 4502697137092297372285800407892073,
  19803070158287709432501507435012078332312289385, 9442840387577101404752271327493007343721, 37788606673116379329190938701679908380407621807505513, 19803070243358625681251095972227645492810481769, 4097048654877067256304649545711721, 4502697175777960493450877510615145, 18019011308041153060526981282868987994675609705, 19803070158288033951171222740421839500829786217,
  8932416796630797130992189838156588122217, 3934789378047890786374830679654505, 1953625046834906226925502569, 8251851454316806179658108329582294728809, 9442839697975174880530913287038256021609, 19803071604487768846354577407217080432546807913, 18019011818464135534775259213310314752061210729, 9442840387576946662164350284636729901161,
  9442840225317940632408367546288692002921, 19803070158288033951132537021960477386976788585, 19803071604488580142990180044513889987032252521, 8592133780672828721909370278596489248873, 3934789494104797139429371326496873, 8592134389144962088954572258508969869417, 4502697137092269702090524979101804, 41530051221495839329443817581206212326534246263947372,
  1876253785156171534574813292, 19803071604487768846567348314575701049142673516, 8251851819400082331479404075342918320236, 3934789590818945718956833049149548, 8592134551404509717422402114108061122668, 1023794749089874182252, 2147053288653728929286193260, 17305388142253109786028830042588655992484921452,
  17305387631829478274982720397642373682358648940, 9442840347012398254170816150576625090668, 1876253822049725652691583084, 8592133942932202265105292483380652277868, 3934789668190188950991432119746668, 8251852346742828740368500506593106853996, 4502697059721081810437680618537068, 8251851576011399201435171815617946714220,
  8251851859964862852999720014040182816876, 4502697137092389606014965021409388, 4097048828962348387257132567756908, 9442840306447385618764007029746230624364, 2147053159526520413327720556, 17305388652676903556351769214492979133692248172, 1876253997293776760754667628, 1953625139068652983725064300,
  1953625175962145529190678636, 4502697214463586721105816942805100, 9442840387576946662228913906486870016108, 2147053325547243464992751724, 37788605602679929235555093422569563424205521756881004, 894667606544613376108, 19803071604487768846354577407217098024705589356, 4502697137092297372206635560206444,
  1023794735895751426156, 9442840387577101404761494633559153967212, 1876253868166559448703172716, 17305387972111966890668947792502962701293584492, 18019011818464135534813944784197728674271723628, 9442839738539994087852700870210356248684, 8592134389144962088834668461612253315180, 3934789726218508388635163177779308,
  9442839738539994087898817747986816172140, 894667588952435720300, 3934789378047890786383626757996652, 1876253785156241903335768172, 931561085895947845740, 9442839941364051438678613868077620658284, 3934789416733600024417684227620972, 8251851454316806179658108289999869837420,
  931561015527216250988, 3934789378047890786335248258957420, 8592134389144962088806998341103655059564, 3934789668190041377016852240138348, 9442840468706662447977370452110587461740, 8592133780672673979432129708978543263852, 9442840630966113362490311623808231932012, 1023794806264508186732,
  17305387206476519623809641068424140780956811372, 931561011129182322796, 19803071604487768846296548967875512261469536364, 3934789378047816999385341712400492, 19803071519417745023724263479942115574981591148, 2147053205643384995681665132, 1023794788672334725228, 9442840063058663803158110670961313316972,
  8251851576011263801641917880346972520556, 2147053316323871428171530348, 2147053325547247863072817260, 9442840306447327590269325277732521640045, 17305387631829113191667882950118871827178586221, 4502697137092297372211033589940333, 19803071604487768846489977099013852929380581485, 3934789571475948137686427204845677,
  4502696846950137558205771265605741, 3934789494104797139455759565717613, 8592134470274677874776815811213790281837, 2147053307100446614716678253, 17305386696052604159164479788974528487533576301, 18019010627476013570535352418369336613057593453, 19803070243358301162813494479524054978197979245, 41530051043089112106319473271286757846515185549836397,
  9442840144188031418408868788333520617581, 2147053325547212678658785389, 18019011818464703442147447449853220773934661741, 894667571360232898669, 3934789494104714129138214198313069, 17305387461688294814706916649519458044751118445, 18019011818464135534601173821498814263843618925, 41530051221496264682240209245342570815445932978471021,
  9442840306447308247576115328523350048877, 8251852022224429824538918089951717359725, 17305386781123560972559190477527146798902149229, 8592133821237647929231157844176384557165, 19803070668711949415603613084842600717787070573, 1876253905060065188291543149, 17305387631829356580815240509083289892725719149, 8592134389145116831321132407665075421293,
  8251852103354029553427138414830770192493, 2147053260983634808954421357, 19803070668711868286332711908877025716369096813, 17305387972111317853329517200130158049680687213, 8251851657140650759770353453636144595053, 9442840144188186160923002863691063361645, 41530051043090303093832965068341331743414505323888749, 36292027926054275634990271227751895319077633946288237,
  8592134226885956059143249353910461137005, 4502697137092444946238390057042029, 8251851413752064343791690320264684372077, 9442840306447366276015456773549139689581, 41530048188594066976523242926477836456930305659371629, 18019011988605318995167119600308495861491433581, 19803071008993951253498038493510759664419078253, 18019011818464135534813944784197689091844735085,
  894667540573915709549, 8251852062789191003273790218333782540397, 2224424476545456540445835373, 8251851657140708788172801436902794199149, 8592133942932202265105292465788474622061, 1023794779876208148589, 8251851778835379181063969652264562327661, 19803070668711949415971126367984768915706216557,
  8251851454316806179695001844117965635693, 2147053251760262772108034157, 19803071094064542983519883396655558684600959085, 931561081497892946029, 8592134389145039460216251028385625538669, 9442840063058663803195004172302838399085, 9442840063058605774580418605800258273389, 4502696866293006012329233802592365,
  8592134389145039460225474404820526825581, 37788606673115698764781615494468231700660132994089069, 894667522981738053741, 9442839941364148152707289475497387360365, 8592134145756124216294748778244471783533, 9442839657410471730143148878915367338093, 9442840063058605774709545743947489345645, 1953625120621864929558790253,
  18019011818464703442070076114387514184844705901, 4502697059721008023426201425018989, 4097048983704927084927952009298029, 3934789687532955947938926378877037, 18019011308040585153367563926014665643656216685, 968454547655087882349, 4097048945019356197500835640377453, 4502697059721081810428884542292077,
  19803070923923481217527616544901952947512934509, 8251851778835185752785257380997173870701, 8251852184483455197218695148799057199213, 2147053325547243465001140333, 18019011818464135534775259268650551371217502317, 8251852346743060854125866515394667217005, 18019011818464135534562488213717916592258416749, 1876253923506826854203916397,
  18019011988605846337642729364065667208487895149, 41530048188594066976523243197277312284336405453209709, 9442840063058605774617312023578954170477, 17305386696052604159048422854951269875429933165, 4502697021035566263163620570431597, 4502697059721008023404211205046381, 2147053224090098283053056109, 931561050711588339821,
  9442840347012475625524728552860959113325, 41530050864683150518074488235715003447531128762663021, 2147053168749896848249978989, 8251851859964901538653617763099995013229, 41530049259030602140791383549553630315535472244293741, 4097048828962422174264213752512621, 19803071094064786372667241084747097305205702765, 8592134226885956059134025955485356654701,
  9442840387576946662238137256533513207917, 9442840347012282197458153825247082578029, 894667588952448303213, 8592134389145039460077900443434778361965, 41530051221494733411507935441870910523256862165434477, 4502697137092435722861955185115245, 19803071604487768846644719603924600230563020909, 17305387036334808820961513730782631187399573613,
  2147053325547247863060234349, 8251852346742828740368500515389229236333, 41530051221495839329281558207662933394060295236747373, 2147053380887506472467955821, 1876253785156171534616756333, 3934789687532955947894945938931821, 1876253812826300839320617069, 19803071604488539577880830535242101879144972397,
  9442839941363935381846047666686543265901, 9442840387577314175512056026306302705773, 41530049794247976482138216699488045371051529312665709, 19803070923923643476804445758265318137269321837, 3934789494104806362854184741503085, 2147053325547221474793750637, 8592134389145039460243921126904037376109, 4097048828962348387305511112933485,
  894667593350507397229, 9442840063058663803038206847676340764781, 3934789378047890786388024829673581, 18019011308041153060913837425241898822177652845, 1023794806264520769645, 9442839657410220273415871707022433976430, 1876253941953509355245535342, 41530050864684426576341969350786691433794695520583790,
  9442840347012282197282909774138998521966, 4097048654877104149775204751507566, 9442840387576946662219690530051960340590, 8592134389145039460068677075795940737134, 18019011818464135534775259259427179334345949294, 18019011308040585153367564073588644621594919022, 8251851413751890258464442419636439351406, 19803070668711706026785083219686254426862911598,
  17305388057182315231833577517858247016433320046, 8932416796630990559104881381974250356846, 19803071774629276825628924062323985499413282926, 9442839941364418952183116890393246957678, 9442840144188108789605983896777628057710, 8251852103353816782492109598938745536622, 9442840387577314175548949540841967321198, 2147053343993983140655792238,
  9442840144188418274671145500455760560238, 9442840144188418274680368876890661847150, 18019011308040585153367564064365276982795042926, 931561094692032479342, 41530048188594066976766632112521178446358723514335342, 8251851657140786159314576269145307873390, 1876253812826336023667540078, 4502696866292950672097012682326126,
  4097048828962422174211437194379374, 4502697214463586721035448219598958, 1023794735895764009070, 931561055109634850926, 3934789590818835038536371286311022, 9442839697975174880438679579863841505390, 8592134145756046845088410368132274716782, 37788606851522000635190697275752931764529635969204334,
  19803071094064218465159653257864440823085531246, 4097048945019227070318707965165678, 8251851657141134330005965589335555178606, 19803071094064908067144205854000361628061663342, 8251851778835321152495500976732602630254, 4502696885635791455972423276429422, 1876253868166559448728338542, 4502697137092297372255014096994414,
  2147053343993969946549813358, 8592134389145116831459482997014032023662, 3934789552133264151140041255551086, 8592134145756046845051516915169240285294, 968454569645303660655, 18019011818464460053058118164209630235622113391, 9442839860234451709725829877367918559343, 19803070158288439599150524801907988018094932079,
  2147053224090120273258348655, 2147053251760249577962209391, 19803071604487931105728120741489878963675201647, 37788605959493043399964203869696655879607734616719471, 4502696963007007017820543000772719, 37788607029928727858680124861823930839150943860162671, 37788606673116039047391925406204028248842223082274927, 37788606673115698765106133990098348213158400676069487,
  894667588952423137391, 9442840387576946662164350311024975413359, 9442840144188360246102676745758940594287, 8592134389144962088954572302489401426031, 8251852103353990867800910693920631947375, 8592134389145116831459482935441349410927, 41530051221494733411507935635299060108288827250966639, 9442840387577314175548949492463459893359,
  968454516868758110319, 4502697059721192490875734609363055, 18019011903534889524015904899700234449221320815, 9442840387577314175512055999918004764783, 4502697175777886706417408063570031, 1876253960400266623117688943, 36292028104460067081970666426476519698657226650550383, 1953625175962163121391403119,
  9442839941364051438660167040441035784303, 19803070158288033951016480143277393821355212911, 1876253923506747689375105135, 1876253822049668478112104559, 37788605959493043399964203869696821900330786302722159, 4502697156435202719769867006771311, 1953625175962097150697930863, 1953625037611534190062338159,
  19803071434347153293644390119009140649433759855, 37788605602681120224001575984020880151957047032676463, 894667597748539228271, 9442840387576946662219690472877387153519, 18019011478182336521131612669459659622893748335, 9442840387577294832828069418347649826927, 9442840063058663803038206768511497273455, 2147053196419955784215953519,
  4097048867648048401888366884290671, 41530050151059644446974690505062850632575680881098863, 8592133780672828721798689748183532175471, 4502697059721008023399813164826735, 19803070158288033951055165732611595797769748591, 8592134226885840002144662464652101288047, 37788607029928727859085773479439009549330373224169583, 894667566962222039151,
  19803070668711503202689046666088487224547999855, 19803071774629276825628924062324016285766123631, 19803070668711503202843789235562772812986843247, 9442839738540090801816812970129181638767, 18019011308040909671611737379813609470576033903, 17305387206476560188802933551438914723801727087, 3934789378047890786392422869893231, 3934789706875639934621651830833263,
  1023794832652793544815, 1953625175962079558522372207, 18019011818464135534775259268650481002494296175, 4259308241191382674722082420424815, 18019011308040585153096764542420997504636026991, 4097048983704927084945544216313967, 894667593350503202927, 18019011818464135534504459774376409993846980719,
  19803070923923602911869181400997432326122111087, 931561085895968817263, 1953625194408858816606109807, 931561077099877892207, 19803071094064786372415784385140072309189509231, 4502697040378268696603613863084143, 8592134389144981431740016042435898507375, 1953625120621847337400008815,
  2243767381892980189498966127, 2147053270206967263434637423, 9442840306447308247594562050606871085167, 9442840387577101404586250608839405600879, 8592134510839729195837522729482531635311, 8592134389144962088871561984944071770223, 1023794757886019633263, 41530051221496349752831939518644007546485324870844528,
  931561011129140379760, 19803070158288033950900423301487881966023868528, 8251851778835321152495500897567736070256, 8592134226885956059124802539468007407728, 1953625185185469187525443696, 894667540573907320944, 3934789590818835038509982977884272, 36292028282865688388862851255223835596861168565616752,
  18019011818464135534794601934190402061994033264, 9442839738539994087815807377664873857136, 1023794771080106737776, 4097048674220027944047325525049456, 9442840306447579046867475285089936474224, 19803070923923481217450245237106366867000262768, 2147053251760249577960112240, 19803072114912333348126398353234031532090327152,
  8251851413751890258445995653572497244272, 17305387461688173119997838141346972974526234736, 17305387461688051425598244689112675565113966704, 4097048945019263963798059261886576, 9442840063058663803075100331425671413872, 968454565247257149552, 9442840387576946662164350297830831685744, 3934789552133264151122449027563632,
  8592134389145116831477929732291606610032, 17305388652676416778521281592849566065548591216, 18019011308040585153193478801680989408618086512, 9442840468706739819340506274810229162096, 17305386696052360770191207575704843084871237744, 8251851413751774201410515342137380307056, 36292027390835710306008251842483781787862918118768752, 8592134186321252908718591510416730357872,
  4097048867648103742199752814493808, 9442840387576946662081339883528449425520, 18019011818464135534659202205500040262644138096, 18019011308040585153290192765793005764549279856, 4502696963006997794466098336235632, 4502697156435202719805051359985776, 4097048945019227070292319665127536, 8592133780672828721780243043692213960816,
  17305387461688173120326666038069110812706865264, 9442840387577333518445073705648269557872, 17305387972111196158968609466357227152182607984, 8592134389144962088963795670128211787888, 8251851778835379181073193024301417103472, 931561068303753412720, 3934789706875713721553966176665712, 8592134226885762630846090307783037550704,
  19803071519417866718201228147738283094354952304, 41530051221494733411954148569207987605007549622911088, 37788606673115698765025004409712042522450229937045616, 36292028282865348105968587183495156285638047797608560, 9442839738540110144666820292343368777840, 19803071519417907282827007412174510689452294256, 2147053270207006845817585776, 41530051043090303093995224229113767880885291880284272,
  19803071519417177116390761017200825878259433584, 19803070668711503202959846188032766702709112944, 9442840347012127454953243170304885260400, 18019011818464703442282846957182649290740203632, 8251852103354010210650918073309448896624, 1023794801866440704112, 41530050864683150517506580573384800781410628225990768, 4502697021035381795793252198121584,
  8592134226885840002264566349509697732720, 37788607029928727858517865739737333066971109264457840, 2147053380887506472446984304, 8592134389145039460068676996631120314480, 3934789706875759838348179761266800, 19803071094064542983751997310818812947846922352, 9442840144188186160766205468695804772464, 8251852346743060854218100160996424286320,
  1876253822049668478103715952, 3934789668190188950929859485368432, 9442840306447385618754783653311337726064, 8251851819399927588891483072069065769072, 9442839941364148152799523213458121162864, 2147053307100446614733455472, 894667562564156653680, 19803071434346747645142832075779307839579750512,
  8251851778835379180999406039210494263408, 3934789706875769061768595127664752, 18019011988605846337565358074716812007562018928, 3934789706875676828057022672928880, 1876253886613312318505746544, 4502697021035510922975379894304880, 8251851657140766816538355976002489811056, 4502696827607361337895036278276208,
  18019010627476175829947581323529593046930817136, 19803070158288033951171222648188136724453392496, 4097048983704927084954340288364656, 18732635749888031723976619611922492933424545904, 4097048867648103742190956738248816, 9442839697975174880641593799859006079088, 9442839657410278301873659948898505982064, 8592134389144962088917678752769347944560,
  3934789571476114158369896474345584, 9442840144188031418418092111991886839920, 19803070668711949415584270207165122810612809840, 17305388652676903556351769103812466312944287856, 19803071519417745023801634695503924112312500336, 9442840103623560381649343198088442937456, 3934789494104861703051221485486192, 18019011818464135534601173821498783477547401328,
  8251852103353913496548455384041748693104, 19803071094064786372415784458927013419645141104, 8592133780672828721854030011190980116592, 37788607029928302506086557274381312834225169284202608, 17305388142253109786028830162492483675533344880, 2147053316323840641833369712, 17305387631829356580776555058099664071126155376, 8592134389145039460243921113709885259888,
  4097048654877104149753214548312176, 19803071434347153293296219538300355270202622064, 1953625194408880806828179568, 19803071519417745023685577909054692856646598768, 9442839738539994087760467171832053629040, 4502697156435202719831439660023920, 8251852022224294424856344641113220448368, 1953625175962154325304672368,
  8251852103353662040116326148114510512240, 894667593350494814320, 19803071774629276825628924136111014570830594160, 19803071519417907282827007467514747308648431728, 41530051221494733411873019046850407180273149133455472, 19803070668711989980751648026651213399022633072, 4097048945019263963806855384268912, 4502697291834885293223103587942512,
  4259308241191419568157453279297648, 8251851413751890258464442331675544780912, 19803071519417988412600821618419267402899390576, 8251851413751890258316868396678054412400, 19803071519417907282904378600066185524072677488, 19803071604487768846393263014997947317823209584, 19803071774629114566139324006165502795991482480, 8592134389145039460160910734591872991344,
  37788606673115698765106134048126722991065139203014768, 41530051221494733412116407575237928055129460178944112, 17305388652676416778521281565179392780415271024, 19803071604488499013061623342581709630800396400, 19803071519417623329015185119343530317868695664, 1876253877389918291437289584, 18019011648323276592569543702418871570994823280, 9442840387576946662256583978616996495472,
  17305387546758359202233809114143845398146449520, 8251852022224410481615123795840746913904, 18019011818464825136759811707989125559448764528, 9442840103623599067247900798489987121264, 19803071604488539577880830526018765026655993968, 17305387036335173904373065059407792270722728048, 17305388057182477490975006965637881006670217328, 8592134186321136851784568251804633006192,
  17305388142253069221403050990289989643129585776, 8251851576011283144538042045153268465776, 9442840347012204826187251749304244633712, 1876253960400293011409338480, 18019011988605846337642729216491719016876867696, 3934789590818816591827481955139696, 9442840387577101404724601215780497916016, 4097048751591114378673735218495600,
  19803070158288033951016480115607277710807662704, 3934789378047890786322054132007024, 19803071604487768846451291472786202388017971312, 2147053270206958467339518064, 1953625037611547384216551536, 4502697175777960493406897060184176, 18019011988605846337565358102386923720105001072, 8592134389144962088973019042165100118128,
  9442840630966345476210784135666275975280, 8251851778835321152532394438491755249776, 1023794797468427747440, 4502697137092288148830200684085361, 17305388057182315231659492116823387685569691761, 2030996437640787862562537585, 8251851778835185752923607899977369518193, 1876253941953548937706078321,
  19803071604488215059520600193536781614575517810, 41530049259030432000216395271717373948363822573027442, 18019011308040585153077421766200598808663949426, 19803071604487768846489977209694321769684402290, 8251851413751890258335315145149774823538, 9442840630966345476210784096083815432306, 8592134226885956059041792204330453958770, 2147053270206958467297575026,
  9442840306447637075279146666781711532146, 9442839860234548423763728979969840250994, 1023794775478153248882, 19803070668711503202572989778182115184932290674, 37788606673115698764781615494468351604553786694041714, 4502697175777886706448194366079090, 3934789590818835038549565396484210, 19803071519417339375609561763552590349218087026,
  17305387972111966890668947792502989089555873906, 41530051221494733411751324337771769880561970726305906, 8592134470274851960011830022259813122162, 17305387631829032061971440051669696796208136306, 41530049794247976482138216776859399283510988180029554, 894667597748511965298, 41530051221496434823383104876024305951939351048880242, 1953625120621847337364357234,
  18019011818464460053290231921575643435218501746, 9442840387577198118707159958617916964978, 8251852103354048896304815787184859644018, 41530051221495413976282342234719169288935836043182194, 19803071434346747645336260317598073367363059826, 9442840387577101404595473932497713102962, 18019011818464297793955374305764242202287931506, 19803071604487768846451291398999226093146210418,
  19803071434347356117682398196371847135216271474, 3934789552133264151074070524330098, 19803071519417907282827007458291322495214551154, 37788605959493043399964204005096347676485784606605426, 4097048945019227070287921618616434, 4502697175778015833643516201795698, 1876253886613312318497357938, 8251851413751890258390655421351376978034,
  37788606673116039047189101136082221190269434584891506, 18019011818464135534813944894878206310660178034, 894667593350473842802, 37788607029928727858680124861823930839221312608534642, 19803071519417704458924399054278732393503260786, 19803071434347396682153434965120827009364131954, 931561085895939457138, 3934789590818835038567157590917234,
  17305386696052604159280536667657581266825379954, 36292026320400110917356718087106913095772215089037426, 19803071604487768846277206210101993978653048946, 41530051221495839329930595431036757764259017608134770, 18019011818464460053058118127316142088217690226, 8592134145756259615958875496203428036722, 19803072114912333348203769642582798772102758514, 17305386696052604159280536538530297984076218482,
  2147053168749848469725773938, 18019011818464297794129459586895256257988395122, 41530051221494733411873018698679669674097172658782322, 9442839738540168173161501960794194051186, 41530051221496434823383104876024269058367640762843250, 19803070923923602911869181474784338252195168370, 8592134389145290916805177549356984696946, 18019011818464135534794601897296887526312640626,
  19803071519417907282827007402951085876047773810, 8251851819400256416769758479027667992690, 9442839941364051438789294270947226812530, 4097048945019227070261533347938418, 41530051221494733412197537581165882442588908966379634, 19803070923923481217450245181766103859562807410, 41530051221494733412156972742615729094440790481961074, 19803071604487768846644719567031076898759245938,
  18019011818464297793974717045091139556672012402, 19803072114911765440657495995781687770720764018, 9442839941363993410202378846943490080882, 41530049259029751434955210803124044566760518726975602, 36292029353301457917399771071770644047651275836227698, 9442840306447308247474658236117964292210, 19803072114912008829843539236313944618335993970, 9442840468706855876173072397036511297650,
  19803071604487768846470634341240299462242336882, 41530051221495413977012508728994095837891594689708146, 19803070158287790562159264900924441984097058930, 17305387206475911151695616845559274613139046514, 37788606673116379329596586816381772343867845008949362, 19803071604487768846567348277682270076344991858, 19803071604488580142990180007620384247406133362, 9442840144188108789569090421824356876402,
  37788606673115698765106134106155171555987754936434802, 8251852062788920204046993883617373978738, 18019011818464460053212860816694316932326752370, 3934789706875639934590865486381170, 9442839941364070781436387465525240791154, 8251852184483629282407592446884248027250, 18019011308040909671611737379813613868603670642, 1023794801866449092722,
  19803071604488539577880830609029130950516146290, 9442840306447579047015049259669862219890, 41530051221494733412197537426423525105921740838535282, 19803071604488215059520600368780920683577213042, 9442839738540168173032374827045017878642, 9442840144188147475158424619402714415218, 9442839697975174880521689936991614926962, 9442840468706855876209965911572209467506,
  18019011478182336521131612669459712399437201522, 894667606544621764722, 9442840347012456282619381042406068584562, 36292029353301457917399770975056652265492421070028914, 9442840387577159433136272606268347121778, 3934789571476077264991700211728498, 894667518583704125554, 19803070158288033951171222740421786724269555826,
  9442840387577294832883409588996125229170, 3934789494104714129089835716051058, 1023794731497717497970, 19803070668711503202689046629194959494704005234, 4097048945019263963736486640091250, 18019011818464703442282847030969559614901715058, 4502697175777960493384906815045746, 4502696963007043911348272863641714,
  41530048188594066976766632093178208535160447790219378, 8592134389145039460188580885886803116146, 4502696963007173038565584923525234, 18019011818464135534659202334627314749329637490, 2147053288653755317594620018, 8592134470274851959974936538510469890162, 9442839738540090801909046699293816127602, 3934789552133319491363466278600818,
  19803070668711340943644331210091144030493606002, 9442840630966345476284571050388463026290, 8251851413751890258445995591999888031858, 894667540573949263986, 9442840144188186160849215856609941520498, 4097048867648048401927949309182066, 19803071519417745023801634787737684063291441266, 2147053251760249578002055282,
  931561068303786967154, 8592134389144962088963795692118477897842, 9442839697975174880586253536851577012338, 4502697175777886706386621714923635, 18019011818464135534601173775381901303011606643, 19803071604487768846606034033037085153234518131, 3934789571476077264908137311240307, 9442840347012475625395601344344962891891,
  36292028996490555588700165200943090224608105728049267, 17305387546758683720652067895190637076698628211, 18019011818464135534852630410425392409799032947, 8592134226885956059078685714468105617523, 4097048867648103742155772349382771, 8592134389144962088973019033368965152883, 4502697175778071173871339275550835, 2147053343993956752368337011,
  4097048945019263963789263168864371, 4502696866292950672079420479504499, 19803071604488093365121006833536261748315652211, 19803071094064380724146340099276248300849725555, 19803071008994356901341940872423542906062635123, 2147053325547239066937852019, 9442840347012398254309166735527493238899, 37788607029928302506005427577938193024086069397684339,
  3934789668190087493903424763723891, 9442840063058605774709545814316216746099, 9442840144188360246250250746727122337907, 3934789590818761251599658837344371, 2147053224090164253721362547, 9442840387576946662136680216904639447155, 41530049259030091717484390844331301823107745372438643, 4502697291834866846479029844836467,
  19803071604487768846277206200878529582815248499, 3934789668190170504168193575092339, 18019011818464297794090774099018159881111732339, 8592134389144962088991465729064165179507, 18019011818464135534504459820493208605434052723, 37788606673115698764659920804732665769235237702729843, 41530051221494733411507935325813994946737925668208755, 41530051221494733411751324241057704311374044565864563,
  18019011818464135534697887905514746263717806195, 37788605959493043399842509160618359844727890561204339, 18019011818464135534543145372933970812930621555, 19803071519417745023801634667833794807583473779, 17305388652676416778521281426828794635376132211, 1876253868166511070178967667, 37788606673115698764659920785389806538505802263560307, 19803070923923035004419622087243148786076221555,
  8251851778835379181036299478979389161587, 4502697156435230389872783408496755, 37788606673115698764862744939454827147851733145747571, 9442840387576946662256583943432592949363, 4502697175777988163492221261185139, 9442839697975174880530913243057759453299, 9442840306447675761080618368431174975603, 3934789397390667006685565656498291,
  8251851859964824167447279260628783464563, 8251851941094714038550653827389335797875, 8251852346742828740368500458214599426163, 18019011818464297793781289033856617775632482419, 4502697098406772601661693685137523, 19803071264206010397858966081876172701922492531, 9442840063058663803213450872396078645363, 18019011818464135534775259121076567995202928755,
  17305387461688051425598244698336034407833403507, 19803071604488093365082321179638473106118410355, 41530051221496179611486219927325659640235710448926835, 41530051221496179612054127202799784497137602386722931, 18019011818464460053328917649260456750765572211, 3934789706875796731897899818942579, 18019011478182336521325040846714886863372419187, 18019011903534889524441446898885109933607485555,
  3934789358705077672549559950114931, 37788606673115698764781615436439866146208994224504947, 41530049259030261858748981164748741241681378333950067, 17305387206476519623809640920850192589301743731, 18019011818464703442282847058639750492231565427, 3934789552133264151135643171291251, 2147053307100508187372028019, 8592134389144962088963795700914533171315,
  37788606673115698765106133932069733627596296144552051, 37788606673115698764862744862083454788740559505719411, 36292028996490555588700165200943081001196486463062131, 9442839738540090801909046624527004467315, 4502697059721008023391017044541555, 17305387461688173120133237888483995284718747763, 41530051221494733411873018659994089563306815519719539, 41530051221494733411670194641328862207891757607157875,
  9442840387577101404752271270318383825011, 19803071604487768846393262978104489956702421107, 41530051578307337153421349722664301554199546822656115, 1876253868166559448694784115, 41530049259029666364525739516509633714920963203661939, 19803071434347153293334905035400814887805386867, 18019011818464135534775259093406456282689306739, 931561055109613879411,
  19803071604487768846489977099013896909854081139, 4097048945019365420868474440253555, 2147053316323849437905420403, 8592134389145116831477929714699428954227, 9442840387577159433136272579880059666547, 17305388652676416778521281583626189630655692915, 3934789706875639934586467431481459, 9442840387576946662072116577462292316275,
  4502697059721044916940737114800243, 2147053224090146661543706739, 18019011988605846337642729327172170264967381107, 41530049259030091717484390689588926039718493773889651, 8592134389145116831496376476365324550259, 8251851859964901538801191737679883010163, 3934789552133264151131245128974451, 36292028282865007823601666399774317725548425596895347,
  9442840063058470374907068427843519119475, 18019011818464135534504459802046446939546845299, 9442840387576946662173573595100906258547, 19803071519417745023956377320318419931628568691, 41530051221494733411507935441870919746554132210647155, 1876253923506760883499958387, 1876253794379569959719141491, 9442840387576946662164350258248423571571,
  4097048732248402721932073798467699, 9442840387576946662081339936305009655923, 37788606673115698765025004216283892937352294137069683, 2147053205643389393696718963, 18019011818464460053367603238594636736943358067, 19803071604487768846722090939390262839185768563, 9442840387577314175512056052694550315123, 41530051221494733412197537581166030016589877148123251,
  19803071604488093364908235815497132708972200051, 8592134389144962088908455468693410807923, 2147053316323880224233095283, 19803070923923481217450245126425845250150891635, 19803071604487768846257863424658183663449538675, 37788606673115698764659920862761068217275678959075443, 9442839941363954724696055024085100396659, 41530051221494733412156972742615729094467178756833395,
  9442839738540168173032374831443060195443, 4502697021035455582690382207516787, 8592134186321136851683111106622653464691, 3934789668190170504185785775816819, 1876253868166537458470617203, 8592134389145232888301272456092754903155, 19803070668712273934389385121361431289598574707, 8251851373186916308582403883330334359667,
  9442840063058663803028983449251181756531, 41530048188594066976766631841721776405898132260388979, 19803071604487768846451291583466693218529181811, 17305387206476357364726239857071854966641000563, 9442840063058663803075100313833502146675, 19803071434347356117682398196371877921550237811, 1023794779876216537203, 8932416796630797130992189833758526931059,
  37788604175432917094207360054388003518404149121122419, 9442839941364264209549079048925344694387, 1876253877389962271883526259, 8592134145756317644536567653723426259059, 9442840387576946662247360654958634467443, 3934789706875815178615585268301939, 36292028996490555588700165200943117894737410454978675, 9442840144188108789688994253905428742259,
  19803071604488093365121006861206311888207478899, 41530051221494733412116407846037283978690284738314355, 19803071604488093365159692450540509466565017715, 19803070243358747375495947094795264301308313715, 4502697291834866846514214239993971, 18019011818464135534813944830314597654647013491, 19803071604487768846606034079154002512138207347, 19803071604487768846586691256816822796767199347,
  18019011818464460053212860733683920222132633715, 19803071604487768846644719686934882591556239475, 2147053177973273283149168755, 19803072114911765440657495995781639392221724787, 4502696963007099251536513527185523, 19803071519417866718201228147738217123678257267, 8592134145756046845051516814014157946995, 4097048828962348387243938449195123,
  19803071604488539577958201769250689674557522035, 2147053270206958467326935155, 9442840387576946662090563295147743772787, 8592134226885936716191784904106501472371, 4502696866292950672061828322820211, 19803072114912333348126398334787274264270602355, 1023794771080136097907, 18019011308040909671611737490494047524547985523,
  18019011988605846337642729382512376097837940851, 19803070158288033951171222611294626586814316659, 1876253877389935883617042547, 1876253794379591949970571379, 9442840387577314175548949523249802248307, 41530050864683150517506580573384745441156416885751923, 4097048945019300857277410617327731, 9442840347012204826150358265554865750131,
  1876253923506809262030454899, 8592134389145039460105570559545342689395, 19803071519417907282749636187389290532856397939, 9442840347012282197421260354691849519219, 2147053316323867030112436339, 41530049259029666364525739593880867723539544975343731, 41530051221494733411873018930793546944008424024703091, 9442840306447462990099472767121683906675,
  1876253941953566529879539827, 8592134145756201587657884653720713560179, 1876253794379534775368024179, 3934789552133236480931571704004723, 18019011818464297793839317510091572939092656243, 8251851778835379181073192967126835527795, 19803071604488296188965586844324196639806849139, 17305387461688173120462065886663216732223570035,
  4097048770933927492490209821458547, 8592134389145116831330355722527357010035, 18019011818464297793974717100431336593443258483, 36292028996490555588700165200943164011553614272135283, 17305388652676416778443910303500684476375105651, 18019011818464703442263504310089450314702782579, 37788605602679929235555093712711760131650553011765363, 19803071604487768846722091013177195153579835507,
  894667549370031800435, 41530051043089962811912257083129784223327407927459955, 19803071604487768846451291500456327294664835187, 9442840347012398254263049831362785706099, 8592134145756046845134527188734132093043, 41530048367000028564362580118147138156264777171599475, 19803071774629276825628924219121345310339629171, 2147053316323853835975000179,
  8251851576011263801568130899654077317235, 18019011818464135534485116924369083381579776115, 19803071604487768846489977154354151121238360179, 9442840630966345476395251585199454027891, 19803071094064542983751997255478668687663169651, 9442840063058605774654205586493168156787, 37788606673115698764416532005545595279908571153694835, 41530051221494733411873018930793528497251156181909619,
  8592134145756201587491863873494454370419, 4502696846950082217947161897730163, 3934789436076302457694949811945587, 18019011818464135534697887887067927423255314547, 19803071604487768846528662762135000414337106035, 9442839941364302895295210487567372779635, 19803071604488580142874123248841150355071828083, 8251852022224100996752876341789051584627,
  9442840387577333518500413880694825025651, 2147053251760205597534847091, 3934789629504525829773578498736243, 4502697291834922186728843197284467, 19803071604488539577880830572135598822655000691, 1876253877389918291441483891, 4097048906333757639926822404620403, 8592134145756046845171420676881559584883,
  19803071519417745023956377394105431410868224115, 9442840387576946662182797028710441549939, 9442839697975174880567806775185679319155, 9442840225317959975046237324849388191859, 19803071604487768846354577370323592285131898995, 19803070923923846300803768107943321258680123507, 37788606673115698765349523176141496511756452430348403, 9442840387577314175696523493431675191411,
  18019011818464135534485116905922352502018146419, 2147053196420043745150369907, 19803070243358828505211732935485622652543959155, 19803071434347356117585684093909166663621673075, 9442840347012398254161592712569114591347, 4097048945019356197456855200432243, 41530051221495413976850249529536024249341055302893683, 1023794749089916125299,
  9442840144188031418418092160370417336435, 8592134389144962088917678814342017974387, 9442839657410529758462586601811270959219, 19803071604488458448435844133485762635349622899, 41530051221494733411873018737365277455087203262660723, 41530051221494733411670194834756993346280804105322611, 19803071434347274988082669308151592624941170803, 3934789668190198174367867062976627,
  8592134389144962088853115148511385485427, 8592134429709858667381241234154690969715, 9442839941364148152725736228367217197171, 8592134389144962088899232026287845408883, 9442840387577333518445073666065886609523, 3934789494104926266655479483596915, 19803071264206010397975022905218944881605476467, 3934789706875805955243548434497651,
  17305387972111317853677688048316684119234838643, 3934789706875741391665678730133619, 18019011818464135534813944839537996079799730291, 9442839697975058823532326388983731847284, 19803071604487768846451291583466644840000782452, 18019011818464135534601173784605277737912893556, 41530050151060410082827605595128464931867591413071988, 931561050711558979700,
  41530050151058963882443673033657505749208366000898164, 8592134226885956059106355834976716456052, 9442840144188186160867662609479702151284, 894667588952418943092, 9442840468706739819202155689859361013876, 9442840387576946662118233437646557806708, 8251851535446289851833666355520019103860, 8592134389144962088936125571609825116276,
  36292027034024978117924199107385423123835482152108148, 2147053325547243464984363124, 9442839697975174880586253541249581580404, 8251851859965075623980865676922350207092, 17305388142252339054599291081589884091132543092, 1876253997293829537304412276, 894667522981729665140, 9442839697975174880530913234261670625396,
  19803071094064786372396441608919691205409767540, 41530049259030602140791383510868004087862940586213492, 2147053288653728929294581876, 4502697175778071173875737330450548, 8592134226885956058995675374932514046068, 4502697137092297372259412109951092, 18019011478182336521131612715576541797377114228, 41530049794248231693832277513464567197569647256797300,
  8251851819400004960226948791852303646836, 1953625129845294141009821812, 19803072114912333348126398390127532873657352308, 19803071604488539577880830701262846921009004660, 968454569645312049268, 41530051221494733412116407652609208180643410548359284, 9442840387576946662238137278523724791924, 2147053307100503789329711220,
  8251851657140921559163170507006188454004, 4097048945019227070257135301427316, 8251851778835321152495500910761892380788, 4502697137092269702138903507501172, 2147053325547221474768584820, 4502696846950137558245353700982900, 41530048723811271176686615839294350978193713918902388, 19803070668711503202689046629195021067342577780,
  1023794797468402581620, 9442839941364186838296623730250349543540, 4502697021035510923001768173371508, 37788607029928727858517865546309201928630441319858292, 2147053224090181845924184180, 8592134226885956059198589612519885635700, 8592134389144962088816221669160044724340, 37788606673115698765025004216283966724315394854617204,
  2147053325547212678688145524, 8251851778835379180907172323240005599348, 1023794775478182609012, 2147053196420012958814306420, 17305387461688051425675616089141946829814890612, 9442839941364418952053989721459719667828, 36292027390835710306008251842483781787845325962084468, 1876253905060065188320903284,
  1876253775932865468447064180, 8592134389144962088917678827536144924788, 8592134226885956059124802601040687923316, 8251852022224294424893238129260639551604, 9442840144188031418261294866530199142516, 8592134389145116831468706364652827705460, 36292028996490555588700165200943237798591481759400052, 4502697059721008023461385809690740,
  19803070158287790562159264734903688146125324404, 8251851494881509330101212868771223437428, 8251851778835263124065382754210101067892, 17305387206475951716340738701748350215931297908, 9442839941363974067453828564358138953844, 19803071604488296189159014892452188976071049332, 19803071604488093365140349637426657807594160244, 9442840144188031418381198623844480319604,
  4097048945019383867559771618934900, 19803070158288277339931724092449685306301481076, 19803071604487768846606034079153940939497537652, 1953625212855567705939378292, 8251851657140689445249007107607443275892, 19803070668711706026939825761490340341889368180, 19803070923923602912120638137497905887147196532, 9442840387577333518334393219215806955636,
  19803070158287871691662279659011952688790241396, 41530049259030091717484390960388198952891404259426420, 4502697021035483252837279116296308, 8251851494881412616137100826027021566068, 1023794757886002856052, 36292030423738673647010225511712426293058742110912628, 41530051221494733412116407962094227225316535690068084, 17305387461688051425598244864356704682971758708,
  3934789358705114566024513261142132, 2147053270206993651705315444, 4502697098406772601688081995661428, 17305387461688173120346008952640041682978472052, 8592134389144962088991465790636849889396, 19803071604487768846277206099421525138376491124, 17305387972111966890668947792502914322807128180, 9442840387576946662109010012833186840692,
  19803071094064218465120967530179649497779404916, 9442840387577159433191612798907082342516, 8251851657140998930314168724479721603188, 8592134389144962088806998363093900198004, 19803071094064542983519883396655554286588002420, 894667597748553908340, 3934789552133171917410876614770804, 9442840387576946662081339909916722200693,
  9442840063058605774617312019180882493557, 18019011818464703442263504217855721150034739317, 1953625175962114742863003765, 9442840468706739819349729602866625118325, 894667536175871295605, 9442839941363974067426158470237782016117, 4097048828962348387318705223106677, 4097048964362206204801059628515445,
  19803071604487768846470634285900093629399040117, 2147053270206932079043674229, 1953625120621882521753223285, 19803071008994356901496683515684782799132295285, 41530051221496349752831939634700941569721946798555253, 4097048945019263963749680777527413, 37788606851522000635636910287033139386599581016916085, 19803071094064908067028148818519984222244962421,
  41530051221494733411507935441870790619380800632651893, 9442840144188302217792462452074542530677, 19803070668711949415584270262505372623931703413, 931561085895958331509, 1023794815060601208949, 1876253905060087178555555957, 9442840144188031418298188275512787337333, 8251852346742828740368500449418537861237,
  1023794771080142389365, 3934789822932638521352580554031221, 2147053325547164300184911989, 4502697175777960493367314637389941, 19803070923923602912081952400589790903487430773, 9442839941363935381882941216406609330293, 18019011308040909671940565248865591615769542773, 19803072114912333348281140839697933604503945333,
  3934789494104834032979091396755573, 8592134470274851959974936463743649841270, 41530051221494733411954148453151099698565141290287222, 41530048367000453917767444070393009864331967183454326, 19803071604487768846393263061114816298154459254, 8251851576011263801568130873265766793334, 2147053205643376199546699894, 4502696846950137558227761498161270,
  17305388142253109786028830125598995528084881526, 19803071519417745023801634787737679665202987126, 18019011818464135534813944894878188718465745014, 8251851778835379181091639759579025244278, 8251852103353662040079432637976829493366, 8592134389144962088853115205685946089590, 19803071519417745023840320358625124373757952118, 1023794779876199759990,
  41530049259029666364525739516509615268185685578743926, 8251852022224100996780546515074180710518, 4097048945019356197509631716622454, 4502697059721008023452589687308406, 9442840387576946662081339949499138703478, 18019011988605846337565358010153229739794366582, 1876253785156241903318990966, 8251852103354029553427138353258127425654,
  3934789745561395289401544337784950, 4502697175778071173836154911850614, 18019011308040585153406249552242302990912847990, 9442840063058663803038206803695842099318, 4502697137092278925506542307377270, 3934789590818835038531973218828406, 9442840387577333518426626952778466984054, 4097048654877159489981037609484406,
  4502697175777886706439398281445494, 36292027390836220729477503476364576914121015525638262, 2147053325547221474760196214, 4097048654877030362798909921689718, 8592134145756046844986953275726851211382, 17305387631829032062164868072127568623865692278, 17305386696052604159048422854951331448060117110, 1023794797468394193014,
  8251851413752122372203361671170142240886, 37788605602679929234946621211831265766814575306473590, 8251851413751890258307645086213823529078, 19803070923923481217527616535678585308696281206, 8592134145756046845152973976788283687030, 19803071094064218465159653119513864668289433718, 8251851859964901538782744998004219969654, 9442840387577294832883409668160941457526,
  37788607029928727858517865584994763592610754043314294, 18019011988605846337565358093163507702759948406, 8251851454316806179695001778147276357750, 19803070498570603695992951711684859033852838006, 36292030423737652799747203303435851889093711178498166, 18019011818464135534678545092400850624286031990, 8251851657140863530622371855225803767926, 9442840387577024033435252329793227587702,
  4097048945019356197470049314799734, 931561050711575756918, 9442840144188031418344305184075553964150, 4259308144477261765319527294304374, 37788606673116889753390357216691864662133926617153654, 1876253868166572642842706038, 3934789668190050600397685175353462, 8251851778835379180953289205414499450998,
  19803070498570644260870187518930879357422403702, 41530051221495839329281558188320230960673078500130934, 9442840347012398254161592782937833603190, 8592134226885956059041792257107028869238, 2147053288653755317582037110, 9442840387577333518491190587822784381046, 3934789668190198174363468991299702, 894667597748528742518,
  9442840063058605774617312093947685765238, 8251851819400082331497850894183435337846, 8251851454316806179658108373562740965494, 4502696866292950672105808775348342, 8592134389144962088871562002536230551670, 931561011129169739894, 894667540573936681078, 18019011308040909671959907942075619989767848054,
  4097048945019263963771671012180086, 1953625157515383863316054134, 18019011478182093132177683103283107225592135798, 9442840144188031418261294835743886147702, 17305387631829032062164868155137894965317730426, 1876253886613312318488969338, 9442840387576946662201243777182157766778, 8251852022224100996762099797388750225530,
  8251852022224352453286462788868908253306, 4502697137092334265712375156965498, 8592134470274851959974936503326076829818, 1023794771080115126394, 9442840306447385618939251129232796942458, 9442840144188186160756982162629639274618, 9442840387577314175548949470473231532154, 2147053168749896848237396090,
  8592134226885956058986452020487853703290, 2147053325547247863047651450, 1876253868166559448715755642, 4502696846950137558262945899610234, 19803071434346747645181517646666704169648259194, 4502697021035510922940195547381882, 1079135003301277335674, 1876253905060065188333486202]

/-- A modulus under which all codes of the dictionary are distinct (used only in proofs). -/
def italianModulus : Nat := 236329

end KC.Bip39.DictData
