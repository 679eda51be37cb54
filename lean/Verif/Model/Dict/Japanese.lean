/-
Generated from bip39/src/dicts/bip39_japanese.txt.
-/
namespace KC.Bip39.DictData

set_option maxRecDepth 100000 in
/-- bip39/src/dicts/bip39_japanese.txt: the 2048 words in order, each as the number whose base 2^21 digits, least
significant first, are the code points of the word. -/
def japaneseCodes : List Nat := [
  504423766210243392636532773619773506, 114259187209612357021762, 114748025971546125250626, 240334567687414242681632600130, 240527995615638416130968662082, 54654549924786242, 239522169536633132711407530050, 54654549933174850,
  504099248681754743472450700662812738, 54342288639275074, 54544598778785858, 114296080614196932259906, 239038599116553903720617750594, 240373252594219155823372808258, 114047049951831903973442, 114748026068303200923714,
  114618898661875145257026, 240373253092280990726845640770, 239077284585984181256996270146, 54654549962534978, 54342288670732354, 113982486004526315745346, 239212684342344399682183114818, 114609675527332812566594,
  114618898912563806875714, 54509414442348610, 240373253064610944985040171074, 54654550002380866, 114600452274043249242178, 114618899018116958793794, 114618898960942354149442, 54342288725258306,
  114748026011128665485378, 239406111938527360124708728898, 54650151981035586, 114351421127893121511490, 114028603141787580641346, 114618898899369734451266, 54606171532701762, 503571906283515687991709427002519618,
  54425851632037954, 240644052088493015725888254018, 240373253092280990726933721154, 114618898934554117025858, 114157730372293796835394, 501300275460109540855919575469928514, 114618898745438129631298, 114618898793816641253442,
  54342288769298498, 238999913582559612908072874050, 54408259466965058, 240527995818552574553645658178, 113964039379199960559682, 113964039396792146604098, 114609675527332911132738, 239406112657950216271538696260,
  54689734290583620, 113964039603500181631044, 114065496695905584164932, 113964039256054511448132, 114609675439371834110020, 114351421127893016653892, 54654549924786244, 114748025936361776230468,
  240527995818552688902712340548, 239734940480885465775830216772, 54689734305263684, 54351084728102980, 54390667146702916, 54483026123436100, 238999912973817282775899713604, 54689734313652292,
  54381871062069316, 239038599024320183352069992516, 239038599042766927425779544132, 240373253221408454329493368900, 114508218553674642763844, 114628122390153754849348, 54342288651857988, 240644052337523985954080043076,
  113964039260452587319364, 54381871070457924, 114692685994411742474308, 239038599098106794609060360260, 501219145492867111239044650850332740, 113964039603500223574084, 114065496695905626107972, 240334567687414225089490595908,
  54601773404401732, 113945592793455816355908, 113982486000128262942788, 114748025936361813979204, 114748026011128604667972, 114748026041914930245700, 114748026068303209312324, 239038599024320117381393297476,
  54373074996310084, 240527995634085116224263434308, 113964039330821348274244, 113982486083691150848068, 114692685739325061607492, 54469832017457220, 113964039379199859896388, 239038599218010864184650117188,
  114748025927565731442756, 54689734349303876, 113982486347573952000068, 54408259376787524, 54342288683315268, 54373075008892996, 114609675536128924463172, 54469832040525892,
  54654549993992260, 54483026182156356, 114618899018116946210884, 54689734368178244, 114047049951831956402244, 54689734374469700, 54390667218006084, 54689734387052612,
  54351084811989060, 54689734401732676, 114296080631789208481860, 114628122135067143188548, 54650151989424196, 240373253313641831650507632708, 54434647714574404, 114692685651364208980036,
  54390667257851972, 54342288748326980, 114296080715352106872900, 239560855162860818437303709764, 113982486268409186103364, 54342288754618436, 114351421127893148774468, 54654550056906820,
  1053854995061866888297168444454152527949892, 54342288760909892, 54351084853932100, 114692685651364223660100, 114748026041915026714692, 114618898934554129608772, 1056322041086229392665672463412994580164676, 114259187209612522696772,
  239038599042766637154835640388, 113982486272807251488836, 54381871030612038, 54654549914300486, 114748025927565672722502, 113964039603500181631046, 114748026068303163174982, 240373253313642029562481094726,
  54672142110830662, 239734939696898956992379367494, 114628122332979129233478, 504099248739782933782995866895790150, 114083943206882841210950, 114618898802612604252230, 114259187407524477284422, 54654549933174854,
  239406111938527452483595284550, 114065496695905600942150, 54689734309457990, 114748025892381323702342, 113982486140865730326598, 503612471102722954439390231376441414, 54342288647663686, 114748025892381332090950,
  501219146460007766930765582792929350, 114618898912563783807046, 54483026140213318, 239444798191944036493293531206, 240450624566097167917615427654, 54381871083040838, 113982486259613007097926, 114609675303032438403142,
  238999912973817076067745148998, 240373252566548784626131808326, 54654549973020742, 114692685994411769737286, 114748025892381367742534, 114748025936361832853574, 239212684526811849215386333254, 54654549985603654,
  54654549991895110, 54351084784726086, 240644052033153064979694366790, 501381406046321344479785105194233926, 114618898960942373023814, 54654550033838150, 54351084826669126, 113982486228826754920518,
  54390667257851974, 502071006406078284689339433567137862, 239560855162860818437301612614, 113964039396792125632582, 240644052033152682349691940934, 114628122055902322765894, 113964039304433153093702, 113964039313229248213062,
  114047049868269127217222, 54654550056906822, 54408259454382150, 54381871179509830, 54417055551598662, 113982486039710786400326, 114692685748121255292998, 114692685770111487848518,
  239038599208787408585012293702, 114692685638169926840392, 114748025883585195028552, 239038599042766593174204854344, 114748025918769567117384, 113964039330821283262536, 240527995818552688902689271880, 113982486272807085813832,
  54672142091956296, 54650151871983688, 114019379835721310285896, 114065496695905584164936, 113964039348413488181320, 114618898745437995413576, 114065496599148586086472, 54491822229041224,
  114692685924043017171016, 114748025901177469153352, 239173998651553052523868729416, 54689734393344072, 54381871143858248, 114748025936361883185224, 54527006687113288, 54342288748326984,
  114748026068303293198408, 54333492657401928, 114692685638170092515400, 113964039260452704759880, 114748025892381453725768, 239173998900584145897509630024, 239038599024319893081126088776, 239618883602202373414266613832,
  114065496432022944493640, 239038599042766681135300751432, 114259187293175406407752, 240373252649559044996829556810, 114157730108410861465674, 113964039313229097218122, 114065496462809104396362, 114692685638169931034698,
  114498994882570585387082, 114748025936361757356106, 114259187236000640282698, 113964039348413473501258, 114065496537575899279434, 238999913582559810820004393034, 113982486272807090008138, 54654549914300490,
  54342288616206410, 54351084709228618, 504058682585921774618681941000466506, 54623763592917066, 114194623829654758240330, 114609675289838248538186, 114748025945157860864074, 114517441925711468179530,
  114609675602099550826570, 239038598775289138356970074186, 54654549924786250, 114498994882570604261450, 501300276059736747384828422558593098, 502760609899369584281571252666118218, 54654549928980554, 114618898960942274457674,
  54434647611813962, 113982486140865721937994, 54654549937369162, 114618898661875124285514, 113964039396792016580682, 114618898912563775418442, 114628122016319797211210, 114618898661875128479818,
  240644051996259576832212349002, 240527995191363548726278762570, 114628122293396727410762, 114065496625536877736010, 114618898974136443351114, 238999913582559612907963822154, 54390667171868746, 239135313080665981649208488010,
  114065496462809165213770, 54500618343034954, 54650151926509642, 239251369433616779949272739914, 239812311521203139642283536458, 238999912973817194815009337418, 114609675646080076755018, 502071006464106613350720239254384714,
  240527995191363548726329094218, 114609675272246169448522, 501300275460109540856038322706853962, 240644052226843503919718477898, 54351084826669130, 113964039348413599330378, 114545111795531543228490, 54483026226196554,
  240644052337524258633049714762, 239406112657950339416983613514, 240644052162280247107424104522, 54434647733448778, 239212684526811787642821161034, 113964039286840983826506, 114545111751551113769034, 114692685721732976226378,
  240527995818552592145831702602, 239038599024319937061591199818, 501219145376810232556167793540608074, 54483026087784523, 114748025883585195028555, 114047049577998084747339, 240527995154469686745044627531, 239038598563151207675516170315,
  114259187209612357021771, 114545111751550948094027, 501665359451944506579679203291050059, 240527995818552574553479983179, 1058363734395327511489169447233539287298123, 113982486114477411414091, 114692685770111322173515, 113982486132069597458507,
  114065496537575895085131, 239173998596212811506709966923, 113982486215632481169483, 113982486272807085813835, 238999913434985629532083466315, 54672142091956299, 54654549914300491, 54650151871983691,
  114618898661875103313995, 114065496695905584164939, 114139283672200422371403, 114508218553674613403723, 114748025918769590186059, 114065496480401313509451, 114618899018116891684939, 239038599208787360206513254475,
  54342288660246603, 54469832009068619, 239038599042766681135313334347, 501300276021050420180938264718356555, 239038598563151344014958014539, 240527995191363311231905574987, 501300276059736138642326766856712267, 501989878141003409089906367428309067,
  54351084784726091, 114065496511187794276427, 114028603207758253142091, 54351084811989067, 114748025918769682460747, 54351084818280523, 239290055779267335016190849099, 240527995089906399146359664715,
  54342288742035531, 240644052337523977158081392715, 54342288748326987, 54342288752521291, 54351084849737803, 54390667272532043, 54645753970176075, 114028603181370049572939,
  113964039286840983826507, 113982486039710786400331, 114545111751551113769035, 113982486083691251511371, 114692685739325162270795, 54469832118120523, 504099248933210926570984680596713547, 54342288599429197,
  54483026087784525, 54663345998934093, 114692685620577919053901, 54342288607817805, 54689734282195021, 54654549914300493, 54351084709228621, 54390667127828557,
  54469831965028429, 54689734290583629, 54342288618303565, 54390667129925709, 240218510199988921342959300685, 54491822203875405, 240353910500528155913275584589, 240644052033152994610870497357,
  238999913010710863282287161421, 54351084728102989, 114618898661875120091213, 54390667146702925, 54342288639275085, 54390667150897229, 54597375336919117, 240644051996259506463463977037,
  2206347585325558950078829014460870082500266831949, 114047049661560968458317, 2218479184588476720537584507999338603462080344141, 2204385115409489050556688407394673821538207150157, 2215624689713489649231825291860734351499270828109, 54351084740685901, 54342288651857997, 54381871070457933,
  54483026140213325, 54351084749074509, 114065496695905621913677, 114692685994411746668621, 114618898661875145257037, 113982486268409100120141, 114692685638169993949261, 240353909984019269073005195341,
  114047049718735461953613, 54522608577687629, 54342288674926669, 113982486347573952000077, 114065496695905644982349, 54342288683315277, 114748025883585274720333, 54408259380981837,
  239367427031722495361473851469, 54689734363983949, 54351084784726093, 114213070358224264245325, 54390667205423181, 238999912973817401523216330829, 54689734374469709, 54390667218006093,
  114692685994411797000269, 113982486347573991845965, 54689734393344077, 54654550027546701, 54483026215710797, 1051132733408655739330481511564149585358925, 54654550033838157, 501989877870204025496273412809568333,
  54469832082468941, 54527006687113293, 54390667247366221, 54390667249463373, 501665358891002944725428854161682509, 54351084839252045, 501300276021050982806504969473110093, 54342288748326989,
  54390667259949133, 54689734424801357, 54342288754618445, 54483026242973773, 54390667268337741, 114692685941635314364493, 114618898912563897053261, 240411938155883193310835126349,
  504667155125487212681584956428791885, 240295882061186548159916027981, 504667155647743083745024709046054989, 113964039220870298742863, 114748025945157846184015, 114692685651364070568015, 54381871026417743, 240527995818552521776926044239,
  113982486039710624919631, 238999913010710524632856801359, 113982486083691090030671, 240334567152458563389151522895, 114065496537575899279439, 114748026094691431755855, 54689734292680783, 113982486268409058177103,
  114692685994411721502799, 113982486039710798983247, 54342288639275087, 54381871057875023, 239734940480885465775838605391, 54654549941563471, 114508218456917615325263, 113982486268409079148623,
  114047049762715903995983, 504667155647743674040843863723094095, 114748025909973522329679, 54689734326235215, 501584229155874254027651531703070799, 240373252686452876191933149263, 504099248681754743472622224501911631, 114508218245811403763791,
  114047049652764757995599, 114213070358224243273807, 240353909910232292778166988879, 240644052014706268129391030351, 240527995348160508314985181263, 114065496695905644982351, 54689734357692495, 114342197531555856920655,
  54351084784726095, 54351084799406159, 239444798191944036493356445775, 240373252843249945731833802831, 54654550033838159, 240295881452443958543097278543, 54434647725060175, 240373253313642029562611118159,
  54597375450165327, 54654550056906831, 54351084849737807, 113964039313229254504527, 240527995099129801969590349903, 501665359432601868710168923612393551, 238999913047604351429857259599, 114277634226365128519759,
  54509414366851153, 114065496352857941618769, 114692685677752345440337, 54408259301290065, 114259187209612357021777, 1053854994210006439312956323837169543163985, 113964039348413469306961, 2218479190713560095845558218379106714411935477841,
  114047049894657255288913, 54663345998934097, 114157730200769850781777, 239812311521203363942592688209, 114028602873506793795665, 504423767486869076596298867718238289, 504423767486869205723507383685099601, 240527995302043678917139640401,
  239618883150257082035744026705, 114360644266833565724753, 239212684333120983664976474193, 113982486039710798983249, 2204741930139997258124545639895476263282184040529, 238999913582559656888550568017, 54381871057875025, 240527995818552548165379174481,
  54381871062069329, 240160482369389692100037062737, 113982486268409079148625, 114296080715352140427345, 114748026041914926051409, 504707720524979093905141882385608785, 114157730345905433882705, 114259187126049540419665,
  54342288670732369, 114047049595590159642705, 114692685686548503474257, 240295882061186548159817461841, 114047049679153041256529, 113964039379199859896401, 114259187389932331085905, 1058363734800975703562046058418644285665361,
  238999913462655886380136149073, 114692685941635203215441, 239212684526811915186182565969, 239406112657950286640358371409, 54654549981409361, 114748025909973553786961, 54434647660048465, 54601773427470417,
  54381871106109521, 114259187315165651546193, 54689734363983953, 54342288693801041, 114692685822888058564689, 238999912863136937080965312593, 239212684526811998749066276945, 54650151981035601,
  114618898675069351899217, 54425851613163601, 54650151985229905, 54527006687113297, 54342288748326993, 114637345445531369877585, 113964039313229254504529, 54342288769298513,
  114259187152437918052433, 54368677048365137, 54373075094876241, 114047049925443759124561, 240527995818552530573180547153, 113982486039710786400337, 114065496396838572404817, 239038599024319893081126088785,
  113982486066099065466961, 239038598655385275489738305617, 114065496449615130538065, 113964039379199960559697, 113982486132069763133521, 113964039396792146604113, 114692685792101720404049, 502517220984126151618149016125059153,
  54597375466942545, 114692685880062650626129, 113964039497947216359505, 114692685924043115737169, 54650152025075793, 114498994856182297931859, 54518210464067667, 239696254854657810836351889491,
  113964039238462484787283, 114692685638169931034707, 114692685646966024056915, 114692685651364070568019, 501300276021050420180810721369534547, 238999912918476804264309043283, 113982486039710624919635, 113964039304433008390227,
  114748025936361757356115, 113964039322025194434643, 238999913010710524632856801363, 114065496432022783012947, 113964039348413473501267, 114545111795531417399379, 113982486114477415608403, 113964039379199799078995,
  239038599208787408584850813011, 113964039396791985123411, 113964039418782217678931, 239038598932086097945800224851, 240527995569521437199602561107, 114065496594750503923795, 114259187442708826304595, 54654549914300499,
  54650151871983699, 113964039260452717342803, 239618883602202303045535019091, 114692685651364244631635, 114748025918769590186067, 113964039304433027264595, 113982486132069620527187, 113964039396792003997779,
  114065496511187639087187, 114498995181637767016531, 54342288630886483, 54654549933174867, 114028603018642181861459, 54663346030391379, 54610569476452435, 54483026131824723,
  54351084740685907, 54342288651858003, 54381871070457939, 114692685994411742474323, 239657569228430059139930009683, 54342288660246611, 114618898661875145257043, 54483026148601939,
  113982486268409100120147, 54373074994212947, 114259187200816331108435, 240527995818552662514477314131, 114748026068303215603795, 54342288674926675, 54689734349303891, 240334567687414163516858314835,
  54425851562831955, 114748026041914944925779, 54650151934898259, 239734940480885342630580334675, 114342197549148042965075, 114498995062890576228435, 54601773435859027, 54641355854458963,
  114692685809693919031379, 240644052088493064104351641683, 54351084799406163, 54689734380761171, 240373253193738338219004538963, 1057002606915320807904593567329711567155283, 113964039260452660719699, 240353909910232411525422788691,
  114314527507804304978003, 54654550027546707, 239290055779267132706055532627, 114748025936361883185235, 54469832082468947, 54527006687113299, 54689734408024147, 54390667249463379,
  54597375435485267, 54351084835057747, 114748026055109147373651, 54342288746229843, 54351084839252051, 54654550052712531, 504423767138698495887526682597273683, 114083943202484920528979,
  114277634151598316859475, 114618898960942408675411, 114692685620577906470995, 113964039260452704759891, 54381871187898451, 239038599024319893081126088787, 113964039322025355915347, 239657569228430059140043255891,
  114692685778907580870739, 114692685787703673892947, 239754283293999313036903460947, 240527995827776087327988789331, 114083943321232188911699, 54623763746009171, 113964039546325727981651, 114065496651925270048851,
  239173998153490953737680728149, 113964039260452539084885, 114692685660160159395925, 504423767486869076596259285299638357, 114102389810219213402197, 114582005239698367197269, 113964039330821283262549, 239212683991856178718931169365,
  501300276021050604648242662372028501, 114047049727531487866965, 501300276059736609034164307008434261, 54509414375239765, 114139283298366468927573, 114157730416274131923029, 54509414385725525, 114231517278219760840789,
  114618899018116870713429, 239038599042766927425758572629, 54425851510403157, 114692685822887903375445, 54645753835958357, 54390667146702933, 54483026123436117, 240373252594219155823372808277,
  114047049679153154502741, 54689734334623829, 113964039247258466660437, 240527995089906223224549552213, 114028602970263817039957, 501665359780772394078510975484440661, 239212684360791099775427555413, 114139283434706074349653,
  240527995818552556961361047637, 239038598655385064383505772629, 240644052309853970998604345429, 240199167211630926216998957141, 54342288674926677, 114535888295951285104725, 54351084772143189, 114554335066413273722965,
  54425851562831957, 54654549981409365, 54351084784726101, 114065496695905659662421, 238999912973817401523216330837, 114259187508679628828757, 54351084811989077, 114748026011128659193941,
  54434647701991509, 113964039313229220950101, 240392596126755753678222667861, 54399463334096981, 54654550033838165, 1051302877269394837185758655709851791929429, 54351084835057749, 54351084839252053,
  54390667257851989, 114748025971546269954133, 504667155589714856541092550472118357, 114028603115399330934869, 54654550063198293, 114692685620577906470997, 54373075094876245, 239212684323897611628109115477,
  113982486039710786400341, 113964039304433169870933, 240295881452444257610304073813, 113982486066099065466965, 113964039330821448937557, 54452239932076117, 54469832118120533, 54597375466942549,
  54601773513453653, 114692685924043115737173, 54342288599429207, 114748025909973469900887, 239657568730367925169250381911, 114176177116367357489239, 54390667115245655, 54689734278000727,
  54469831956639831, 54342288612012119, 54399463220850775, 54342288618303575, 54390667129925719, 114692685651364244631639, 114296080996826970337367, 54351084740685911,
  238999913582559700869015679063, 114083943074941475237975, 114748025892381344673879, 54491822241624151, 54601773404401751, 113982486268409100120151, 114692685928441057390679, 114609675303032438403159,
  114748025936361820270679, 114692685893256691593303, 54342288674926679, 54381871093526615, 54483026163282007, 114692685770111500431447, 239038599208787408585024876631, 240392596126755674513341427799,
  114351421127893077471319, 54689734357692503, 54597375387250775, 54689734363983959, 114748025901177469153367, 114748026068303236575319, 54342288693801047, 240353909781105321756623646807,
  54483026182156375, 113964039533131512950871, 54689734368178263, 113982486268409135771735, 54390667218006103, 240527995818552688902867529815, 54342288712675415, 54351084811989079,
  54689734393344087, 54351084818280535, 54654550027546711, 54689734401732695, 114618898701457633062999, 240295881452444174047420362839, 54342288731549783, 54654550033838167,
  54689734408024151, 114692685620577872916567, 114692685629373965938775, 114692685646966151983191, 1056407109325200229314103798092399810457687, 240295881452443958543097278551, 239038598932086137528172687447, 114692685677752477560919,
  54408259433410647, 238999913582559656888504430679, 114692685704140756627543, 114692685721732942671959, 113982486083691217956951, 113964039348413601427543, 239038599042766681135267197015, 240527995117576334937021231191,
  114498995084880898961495, 114692685928441128693847, 113964039546325694427223, 113982486264011171049559, 503936988379755669536229610399739991, 239212684139430179687077261399, 240527995209810204839196504151, 239173998328735158777321369687,
  54601773484093527, 240644052309854155716627017815, 1057853312832623038007120414009661778309207, 238999912863136572043142639703, 239212683991856227097405042775, 240527995154469823084448723031, 239038599208787408584987127895, 114259187407524590530647,
  114618898745438117048407, 240373253313642029562611118167, 54373075094876247, 113982486039710786400343, 503774730379552278483272640061517911, 504667155125487111224562919770435671, 114065496449615130538071, 114692685928441162248279,
  114748025909973469900889, 54425851483140185, 54509414366851161, 114692685611781826031705, 113964039247258399551577, 54373074929201241, 113982486132069597458521, 504423767486869408637652612071567449,
  504667155647743083745024708880379993, 239212684526811787642659680345, 239618883602202355821919088729, 114692685721732814745689, 240353910500528125126939521113, 54597375320141913, 54351084719714393, 113964039396792003997785,
  54654549933174873, 113964039603500198408281, 54425851518791769, 114692685695344709742681, 238999912973817401523163902041, 54606171438329945, 114618898912563783807065, 114609675303032438403161,
  240353909891785548704457437273, 114296080759332605538393, 54381871093526617, 54654549977215065, 54654549991895129, 54408259389370457, 114748025971546215428185, 501219145492866963665435108839534681,
  239038599042766755902104023129, 504139812881992027170793175816089689, 114609675646080104018009, 54658948055183449, 114277634252753338380377, 114618899018116965085273, 113982486215632659427417, 114692685994411809583193,
  54342288725258329, 54425851615260761, 54351084826669145, 54381871156441177, 114600451992568314474585, 54610569589698649, 501300276407906664010866730794496089, 114296080759332580372569,
  54654550063198297, 240527995818552574553645658201, 239038599218010864184750780505, 240334567687414348234732089435, 114259187165631891910747, 240527995818552530573014872155, 114748025936361753161819, 113982486272807085813851,
  54351084709228635, 240527995099129454523752394843, 114692685792101573603419, 54606171413164123, 54632559692230747, 504423765881416196890889638754922587, 54689734305263707, 54351084728103003,
  114748025936361797202011, 54342288660246619, 54399463264890971, 114065496352858006630491, 239212684323897611628008452187, 114065496458411236143195, 114692685677752410452059, 114259187200816329011291,
  503571904852147665142015840537817179, 239212684526811866807559794779, 240527995818552592145733136475, 240527995818552622932058714203, 240527995827776034551329992795, 114748026055109076070491, 240527995818552688902756380763, 113964039497947117793371,
  114259187442708889219163, 54373075008893019, 114748026055109097042011, 114748026041914959605851, 114637345762190662053979, 114342197857011328102491, 54342288725258331, 54654550027546715,
  54654550033838171, 114628122135067143188571, 54557793029468251, 239212683724378737095817048155, 54342288769298523, 113964039247258565226587, 54373075094876251, 114582005195718067761243,
  54390667280920667, 240527995818552530573180547163, 240644052051599782665200349275, 113964039304433169870939, 114563558495624823320667, 113964039322025355915355, 113964039330821448937563, 114748025962750197903451,
  114065496440819037515867, 239038599042766681135300751451, 113964039379199960559707, 113982486132069763133531, 114047049753919932608603, 114692685800897813426267, 238999913591783143274602049627, 240644052365194431918262726747,
  501300276427249919846778468971851867, 54606171559964763, 1056832465731859758389215558152171187875931, 114692685893256790159451, 114065496603546758426715, 113982486264011158466651, 113982486272807251488859, 114600452247655045673051,
  501665359355231086646806536024764507, 113964039546325727981659, 54663346164609115, 54390667111051357, 504099248933210649869634458775203933, 54522608510578781, 2204741930139994175199446454310931362850413752413, 54381871026417757,
  114748025918769571311709, 114692685704140628701277, 240527995818552592145670221917, 114692685787703512412253, 114748026055109013155933, 114692685888858582167645, 54650151863595101, 114351421127893006168157,
  54689734286389341, 113964039603500181631069, 114047049951831887196253, 54351084728103005, 114102389920170229379165, 113964039603500202602589, 54509414410891357, 54342288651858013,
  54689734326235229, 114748025901177433501789, 240373252843250200818464338013, 54351084763754589, 114692685638169993949277, 114692685651364131385437, 501300276059736747384784442137522269, 114259187192020235989085,
  113982486039710685737053, 114692685721732875563101, 54500618343034973, 240450624566097167917630107741, 240334567687414273468021092445, 114618898661875168325725, 54461035939115101, 114748026094691530322013,
  114065496695905684828253, 114637345762190680928349, 54483026213613661, 54654550027546717, 54390667241074781, 114000933025677014216797, 54654550033838173, 114535888405902502408285,
  240644052125386442300654104669, 114526665179001197178973, 54351084849737821, 113964039260452704759901, 113964039286840983826525, 238999913582559656888537985117, 114259187218408615719005, 239212684526811866807658360925,
  239038599042766681135300751453, 240644052337524315807698399325, 504423767486869408638000057745944669, 114692685880062650626141, 54342288599429215, 114692685620577740795999, 114692685629373833818207, 114047049595590092533855,
  113982486000128202125407, 501665359780772394078370237996085343, 54381871022223455, 239038599208787298633683841119, 114692685677752345440351, 54408259301290079, 238999913582559656888372310111, 4654732931855648185630822804022691889489474006177296479,
  239173998310288278364211916895, 114259187236000636088415, 113982486083691085836383, 238999913047604003984182882399, 239038599042766681135135076447, 113964039379199794884703, 1057342886442705098198445668493246569918559, 113964039396791980929119,
  114259187315165473288287, 113982486158457876525151, 114692685809693740773471, 501300276059736387673235422493814879, 113982486189244202102879, 114692685849276159373407, 54584181161734239, 1054365418571683418756187325766967475843167,
  504667154970745334960439626444058719, 54606171394289759, 114692685888858577973343, 114047049859472883200095, 113982486272807085813855, 54645753812889695, 239212684360791368056199721055, 54654549905911903,
  114692685950431229128799, 54359880793862239, 54654549914300511, 54434647592939615, 54654549918494815, 114618898960942263971935, 54342288618303583, 54522608525258847,
  114748026055109027835999, 114692685695344554553439, 54390667146702943, 114047049859472914657375, 54342288639275103, 240527995818552548165240762463, 504139813326876728788844770712629343, 114618898701457551274079,
  504099248739782555624997442564403295, 240392596126755665717221142623, 113982486004526305259615, 54390667171868767, 238999912973817401523176484959, 54601773404401759, 239734940480885465775863771231, 238999912863136699586529210463,
  501665359355230524020901181650907231, 114102389946558655246431, 502517220597269612640095468343275615, 238999913047604140323624726623, 54654549977215071, 114618898661875164131423, 239522169536633291041134358623, 54689734359789663,
  54381871106109535, 114508218263403617071199, 54483026182156383, 114692685994411797000287, 114618899018116965085279, 113982486347573991845983, 114748025918769688752223, 54654550027546719,
  114618898908165871513695, 114047049577998034415711, 54434647708282975, 54654550033838175, 54483026222002271, 113964039322025324458079, 54654550048518239, 54434647725060191,
  2218479190713559609069217127468685638882641850463, 113982486268409186103391, 54654550052712543, 54500618426921055, 54654550056906847, 114296080970438810808415, 114296080759332580372575, 240373253193738228267883704415,
  239618882799769252498518323295, 54342288769298527, 114692685646966185537631, 54373075094876255, 54381871187898463, 114692685677752511115359, 114748025918769732792415, 114692685695344697159775,
  2219549623165335798676532673180501294587259662431, 238999913010710863282438156383, 114065496432022944493663, 113964039348413634981983, 114231517366180854640735, 113964039379199960559711, 113982486132069763133535, 114314527714512547623007,
  114692685792101720404063, 239618883196374250083273683039, 113982486158458042200159, 240527995827776047745570189407, 501300276407907106732944402176553055, 114259187389932429652063, 113964039497947216359519, 239618883482298783225771733087,
  114637345735802464776287, 114655792479876174327903, 54342288599429217, 54689734273806433, 54381871022223457, 113964039304433004195937, 54689734286389345, 54342288618303585,
  54645753827569761, 113982486259612965154913, 54689734296875105, 240644052106939667440503631969, 54689734305263713, 54390667146702945, 54342288639275105, 54381871062069345,
  239038599042766861455081877601, 54342288651858017, 54351084749074529, 54342288660246625, 54689734334623841, 114554335066413259042913, 240295882061186548159817461857, 54381871093526625,
  54689734349303905, 54381871106109537, 54650151943286881, 54351084784726113, 113982486268409135771745, 240527995246703407113523179617, 54351084811989089, 54461035981058145,
  54483026215710817, 240411938939869627327436566625, 240644052245290247993425932385, 1058363735044365315146649363021170768621665, 113964039238462442844257, 239212684360791368056338133089, 114139283307162687778913, 504423766094186513953537169081512033,
  54425851632037985, 54601773492482145, 240141139556275822848976629857, 113982486268409186103393, 114748026011128692748385, 54672142249242721, 113964039348413634981985, 114065496594750665404513,
  54373074929201252, 114231517137482257805412, 54373074933395556, 501300276059736747384828422539718756, 114692685809693744967780, 54672142096150628, 54351084711325796, 114618898960942266069092,
  54522608533647460, 54654549928980580, 54522608537841764, 54654549933174884, 113982486347573907959908, 114618898661875145257060, 114065496695905636593764, 114748025936361820270692,
  54606171461398628, 114618898912563815264356, 240373253313641831650453106788, 54601773427470436, 239792968920226919597763211364, 54654549993992292, 114157730416274220003428, 238999913149061399854738059364,
  54654550027546724, 54381871145955428, 113964039348413597233252, 54650151989424228, 54654550035935332, 54342288746229860, 114748026094691576459364, 114065496581556509093988,
  114351421127893155065956, 54650152016687204, 54425851483140198, 54491822180806758, 54601773343584358, 114692685646966019862630, 54373074929201254, 54381871022223462,
  113964039286840818151526, 114065496388042313707622, 114259187209612357021798, 54425851487334502, 113964039330821283262566, 113964039348413469306982, 114748026011128543850598, 113964039409986120462438,
  239038599042766755901925765222, 114692685849276159373414, 239038599208787492147730329702, 54469831956639846, 114628122064698281570406, 113982486132069616332902, 114748026055109032030310, 501827619057602050163685555733278822,
  501300276059736747384784442106064998, 114748025909973509746790, 54650151903440998, 54351084749074534, 238999913582559612907968016486, 113982486268409100120166, 239212684526811787642722594918, 239173998900584229460294774886,
  240663395122967822657696837734, 239038599208787492147797438566, 54623763647443046, 239077284115592075436129005670, 54381871106109542, 238999913582559630500177129574, 114600452102519420629094, 54342288693801062,
  240411938257340312104441229414, 114748025971546228011110, 239173998900584247052529053798, 54689734393344102, 54359880911302758, 501989878334430949932401492345499750, 239135313274356504152156156006, 240644052033152972620738605158,
  54434647725060198, 114748026055109159956582, 54399463365554278, 114139283417113867333734, 239618882799769252498518323302, 114692685620577906471014, 113964039260452704759910, 54381871187898470,
  114748025901177546748006, 114692685677752511115366, 239212684526811822827193249894, 113964039304433169870950, 54425851653009510, 113982486066099065466982, 114231517366180854640742, 114047049727531653541990,
  113982486132069763133542, 113964039396792146604134, 240334567696637720271756734566, 2204385119748089066538661303254124972573477318758, 114259187403126569185382, 501219145260753298533076307175026790, 501665359432602339102142803205959782, 114655792479876174327910,
  113964039220870298742888, 54658947952423016, 240527995099129463320008994920, 239038599024319849100499497064, 240644052014705955868199891048, 54425851491528808, 240644051996259466881013919848, 54342288616206440,
  54373074941784168, 54390667127828584, 54434647592939624, 54654549918494824, 54342288618303592, 54434647595036776, 114609675298634345754728, 239173998900584247052432584808,
  54342288626692200, 239038599024319893080983482472, 114692685770111345242216, 54513812440625256, 239618883602202500957472829544, 54342288630886504, 54654549933174888, 54623763611791464,
  54373074964852840, 240527995099129749192893804648, 54351084749074536, 54689734334623848, 113982486259613007097960, 239038599024319849100560314472, 114692685668956317429864, 240527995818552574553547092072,
  239038599024319981041957744744, 240373252649559388044532920424, 240373252566548850596839960680, 54342288683315304, 114618898661875168325736, 54650151939092584, 114498994882570669273192, 114157730416274207420520,
  1057513030465701403202440281537677763817576, 54351084811989096, 54654550027546728, 54654550033838184, 239560855162860888806031110248, 54654550035935336, 504667155647743083745024709058637928, 114618898661875233337448,
  114259187165632057585768, 504058684114003678570369007222796392, 114065496352857941618794, 113982486039710620725354, 114582005239698367197290, 54434647580356714, 114692685721732810551402, 113982486083691085836394,
  54434647592939626, 113964039603500181631082, 54434647603425386, 114618899018116883296362, 240644052245290256789422485610, 54399463243919466, 501827617703605408896545548467712106, 113982486132069662470250,
  240141138965980263178842419306, 114139283324754813005930, 239696254854657674496991834218, 114351421127893079568490, 54672142173745258, 54373075017281642, 114748025971546228011114, 114047049577998028124266,
  54359880911302762, 54601773469413482, 114748025971546248982634, 114028603137389534130282, 54654550033838186, 54606171528507498, 54351084841349226, 114748026055109153665130,
  114748026068303293198442, 54654550056906858, 240644052337524126691677450346, 240353910500528155913409802346, 54351084692451435, 239522169536633132711380267115, 54399463212462187, 54342288616206443,
  54342288618303595, 114277634252753244008555, 114748026055109027836011, 114508218263403552059499, 114692685875664461508715, 114618899018116883296363, 1053259500635801144020870907651816131932267, 54381871062069355,
  114351421127893046014059, 501300276059736747384828422596341867, 504667155647743083745024708941197419, 54373074994212971, 54381871087235179, 113964039286840883163243, 113982486039710685737067, 114692685695344596496491,
  239212684360791143755892666475, 113982486066098964803691, 114047049679153041256555, 113964039379199859896427, 54351084776337515, 54689734393344107, 54610569562435691, 54483026222002283,
  54650151993618539, 240527995034565859061983621227, 240218510199988921343091421291, 114609675430575879499883, 54342288769298539, 54373075094876267, 54381871187898475, 240527995818552530573180547179,
  114047049661560955875435, 239038599208787342614314627179, 113982486083691251511403, 113964039348413634981995, 54469832118120555, 113964039379199960559723, 114065496493595595649131, 114757249440340168945771,
  114609675527332911132779, 54606171559964779, 113964039497947216359531, 113982486272807251488875, 240644051996259251376730681452, 54434647595036780, 504099247985412687388144210995589228, 113982486347573899571308,
  114609675544924954570860, 54606171438329964, 240644052337523985954153443436, 54650151987327084, 54434647725060204, 239212684323897699589039337580, 114748025909973469900909, 54381871022223469,
  54654549905911917, 54663345998934125, 114176177160347849863277, 113964039348413492375661, 54645753835958381, 114748025953953970663533, 54606171425747053, 114748025909973509746797,
  239406112657950163495024603245, 240373253313642029562518843501, 114692685994411750862957, 54342288670732397, 114692685704140689518701, 239038599208787360206402105453, 1056832465731859564960355773271058025558125, 239212683973409808479099564141,
  114748025971546228011117, 113982486347573991845997, 504058683533719229815075199753662573, 54381871143858285, 114139283628220064215149, 54601773471510637, 54342288729452653, 113964039348413595136109,
  54500618408046701, 54351084841349229, 114748025927565817426029, 114609675272246213488749, 114139283324754898989165, 114692685651364232048749, 114692685660160325070957, 114748025901177546748013,
  114748025927565825814637, 54425851653009517, 239212684323897699589039337581, 114748026011128709525613, 114757249427146029412461, 239618883602202487763475902573, 114259187389932429652077, 239038599042766861455207706733,
  113964039546325727981677, 114748025945157846184046, 240121796743162098733209890926, 114157730416274131923054, 114508218346966431576174, 240353910500528006379702595694, 54434647611813998, 54654549937369198,
  54654549954146414, 114065496695905621913710, 114517441925711505928302, 113982486228826677325934, 240644052245290489885916934254, 54390667180257390, 114157730416274207420526, 54645753903067246,
  114618899018116965085294, 114618899018116971376750, 114351421127893121511534, 54597375435485294, 114332974111140549242990, 114102389990539086803054, 114351421127893144580206, 114047049868269123022958,
  54689734428995694, 54381871187898478, 113964039220870298742895, 54390667111051375, 240527995191363166096370708591, 114028602833924375195759, 114065496322071794298991, 114692685677752345440367,
  114748025918769567117423, 114692685704140624506991, 113964039322025190240367, 114692685721732810551407, 113982486083691085836399, 54469831952445551, 501219146769492389370436725239722095, 114259187451504915132527,
  54654549914300527, 54654549918494831, 54342288618303599, 114609675303032551649391, 54654549920591983, 114563558495624680714351, 54689734305263727, 114748026068303179952239,
  54601773383430255, 54689734313652335, 114748025918769606963311, 114582005239698545455215, 54654549945757807, 54654549954146415, 240527995172916540769919053935, 54689734330429551,
  54689734334623855, 114259187394330371305583, 114692685646966086971503, 114065496352858006630511, 114047049951831927042159, 114609675311828531425391, 114259187183224142966895, 114692685677752410452079,
  113982486039710685737071, 114692685695344596496495, 114692685704140689518703, 114259187253592887144559, 239038599024319937061490536559, 114692685770111387185263, 501300276059736756608319206711111791, 239038599218010864184650117231,
  54434647660048495, 114748026055109088653423, 114517441582663907422319, 239367426884148850635072090223, 239173998900584119509188620399, 113982486004526374465647, 54483026219905135, 54342288737841263,
  54425851621552239, 54351084841349231, 240527995025342487025145622639, 54342288760909935, 54342288769298543, 113964039247258565226607, 114692685646966185537647, 114065496352858107293807,
  239038599042766593174370529391, 503612471102722991332904767213023343, 54408259466965103, 114545111751551113769071, 113982486066099065466991, 240527995818552592145831702639, 114231517366180856737903, 114259187482291421065327,
  113964039379199960559727, 114139283456696294322287, 113982486158458042200175, 114757249413951889879151, 240527995818552688902854946927, 240527995827776074133849256047, 501584228536905018371707672199180399, 113964039497947216359535,
  114692685924043115737199, 114692685941635301781615, 54381871022223474, 54689734282195058, 54654549914300530, 54390667129925746, 54650151874080882, 54654549920591986,
  54689734292680818, 54342288626692210, 54483026119241842, 114047049586794030968946, 54390667146702962, 54342288639275122, 504058684114003678570105124289523826, 54689734313652338,
  2218479184078054468231126473409509519476731687026, 54636957759713394, 54373074981630066, 54606171446718578, 114047049841880753778802, 114609675646080057880690, 54654549962535026, 114748025892381355159666,
  114139283364337216925810, 54425851552346226, 1057853311250595514464233965321156552568946, 54434647645368434, 240527995818552574553547092082, 240353909965572524999297740914, 240353909984019269073007292530, 113982486272807152922738,
  54342288674926706, 240141139556275858033277415538, 240353910011689503930726756466, 54689734357692530, 54654549991895154, 54689734368178290, 114065496695905665953906, 113982486268409135771762,
  54351084811989106, 114609675602099657781362, 54689734399635570, 54483026215710834, 54342288731549810, 239367427031722512953703936114, 54399463342485618, 54434647714574450,
  54351084839252082, 239173998135044504333087420530, 239734940480885307446273257586, 54390667259949170, 54483026238779506, 113982486268409186103410, 54597375450165362, 240141138965980263178924208242,
  54342288754618482, 54342288756715634, 54351084849737842, 54381871175315570, 114047049868269129314418, 114065496352858107293810, 114259187192020336652402, 114692685686548604137586,
  114563558495624823320690, 113982486083691251511410, 114231517366180856737906, 240527995827776034551430656114, 501300276407907106732944402176553074, 54689734273806453, 114231517027531095027829, 113964039286840822345845,
  114692685721732814745717, 501300276175793091112179919119986805, 113982486132069601652853, 54557792886861941, 54654549914300533, 54689734290583669, 54342288618303605, 54689734296875125,
  239618883602202347025844940917, 504180377140257750210453133099806837, 54351084728103029, 54342288639275125, 114748025892381327896693, 114508218553674638569589, 54597375345307765, 54342288651858037,
  114748025901177429307509, 54390667167674485, 239212684102536761908444278901, 54689734334623861, 113982486268409100120181, 54351084763754613, 54373074996310133, 114259187165631956922485,
  54381871087235189, 114065496388042378719349, 239038599208787408585024876661, 54654549981409397, 54689734353498229, 54351084784726133, 54342288693801077, 113982486268409135771765,
  54689734387052661, 54689734399635573, 54689734401732725, 54483026219905141, 54689734405927029, 54351084839252085, 54408259448090741, 54654550052712565,
  54342288752521333, 114047049577998072164469, 501665359780772394078717683670462581, 240644052014706294517781246069, 114259187218408615719029, 239173998328735369883595845749, 113982486083691251511413, 501300276427249919846778468971851893,
  114692685611781647773816, 114692685646966019862648, 238999913582559612907907199096, 54381871022223480, 240527995818552530573014872184, 113982486039710620725368, 54417055394312312, 114545111751550948094072,
  114259187236000636088440, 54452239766401144, 114065496440818871840888, 114692685770111322173560, 114259187315165473288312, 54672142091956344, 114748025883585213902968, 54606171425747064,
  240411938155883017388974682232, 2219549619847582721197382653803856405656047202424, 54434647725060216, 114692685651364232048760, 501300276059736046408817504541487224, 501989878334430894592477134529245304, 113964039304433169870968, 113964039348413634982008,
  114609675619691900448888, 54689734273806459, 54390667115245691, 503936989656381399612605199942692987, 114065496388042317901947, 113982486083691090030715, 113982486215632485363835, 114692685893256628678779,
  114259187442708826304635, 54654549914300539, 54689734290583675, 54689734292680827, 113982486268409058177147, 114692685660160337653883, 54663346022002811, 54483026119241851,
  54689734305263739, 54351084728103035, 54654549937369211, 54342288643469435, 54483026131824763, 54628161666691195, 113982486268409079148667, 54342288651858043,
  54342288656052347, 54390667167674491, 54491822241624187, 54654549962535035, 1057342886280445821369352209065691022635131, 239212684360791099775427555451, 54417055459324027, 114692685739325061607547,
  240644052245290595439047880827, 54654550033838203, 54342288769298555, 54381871187898491, 54399463373942907, 114259187218408615719035, 114065496603546758426747, 114231517190258815938686,
  54342288618303614, 114618898745437987025022, 114618899018116870713470, 54654549933174910, 54500618309480574, 54483026127630462, 114526665297748348121214, 54390667159285886,
  114618899018116904267902, 54650151926509694, 54610569516298366, 114748026068303228186750, 54399463292153982, 54390667201228926, 54351084811989118, 54654550035935358,
  114748025909973612507262, 54351084839252094, 114028603115399326740606, 54434647737643134, 54650152016687230, 54654550063198334, 114748025883585360703614, 114259187174428150607998,
  239212684526811866807658360958, 114028603001050130034814, 54645753812889727, 54469831956639871, 54654549914300543, 114065496695905584164991, 54461035874103423, 54689734292680831,
  54689734305263743, 54689734309458047, 238999912863136937080902398079, 54342288647663743, 114618898661875132674175, 54654549954146431, 54373074994212991, 114618898675069295276159,
  114618898701457574342783, 54342288674926719, 114618898912563815264383, 54500618357715071, 501219145454180765588586341033062527, 114618898947748197838975, 54351084784726143, 239406112657950128310696554623,
  54689734393344127, 54500618408046719, 114748025909973608312959, 54342288748327039, 114065496616740879085695, 54390667272532095, 54373075094876287, 239212684526811866807658360959,
  54373074929201280, 54381871030612096, 54689734286389376, 54342288618303616, 54351084711325824, 54359880804348032, 54425851502014592, 240218510292222668099790319744,
  54654549933174912, 114692685994411721502848, 240373253313642042756641599616, 238999913093720855372225327232, 114748026041914909274240, 240527995634085406495308001408, 54663346038780032, 54351084740685952,
  54408259345330304, 114748026068303192535168, 54610569484841088, 54654549954146432, 54689734326235264, 113982486259613007097984, 113964039313229176909952, 54351084784726144,
  54601773481996416, 54351084839252096, 114047049652764841881728, 113982486268409186103424, 54689734431092864, 114692685611781647773825, 114692685629373833818241, 114692685638169926840449,
  114065496352857941618817, 239212684360791099775362543745, 113964039304433004195969, 54425851487334529, 113982486083691085836417, 239618883602202487763310227585, 113964039546325562306689, 114065496651925104373889,
  504099248681754494441748753203343489, 114157730416274152894593, 54461035899269249, 501219145492866963665435108793397377, 114259187508679576400001, 54342288725258369, 54434647714574465, 114582005195718067761281,
  114047049679153141919873, 239038599208787408585012293761, 1057172748098780580795053156435498832507010, 1057853309911955262025997545869196591640706, 54654549914300546, 54425851510403202, 114047049727531510935682, 504667155647743083745024708903448706,
  114692685941635196924034, 114618899018116931530882, 54351084841349250, 54390667280920706, 238999913582559700869003096194, 54623763592917124, 54654549933174916, 54342288639275140,
  113964039313229132869764, 54342288647663748, 239038599098106904560214749316, 54601773391818884, 54654549954146436, 54351084749074564, 54342288660246660, 54689734338818180,
  54500618343035012, 240353910509751527950172303492, 114618899018116958793860, 54654550033838212, 238999912973817093659998302340, 54342288746229892, 238999912863136866712275660932, 54381871026417798,
  2206347583794288380065637026026562216402658275462, 114748026081497292222598, 113964039497947054878854, 54483026119241862, 114259187420718629400710, 54689734326235270, 54351084749074566, 54373074985824390,
  114065496599148607058054, 114618899018116927336582, 113982486259613028069510, 114655792506264371605638, 54342288748327046, 54654550056906886, 54342288607817864, 54373074933395592,
  239038599024319849100499497096, 114748025936361757356168, 54434647584551048, 240527995071459465956526403720, 114748025953953953886344, 54689734292680840, 54689734296875144, 113964039330821306331272,
  239038599208787492147753398408, 54342288630886536, 240373253193738338218920652936, 54689734313652360, 113982486259612986126472, 54351084749074568, 54390667167674504, 54373074994213000,
  54342288674926728, 1052068512189319704452696335536489379147912, 54483026177962120, 54390667249463432, 54351084835057800, 240644052365194150443260850312, 113964039313229250310280, 54351084696645769,
  239173998900584119509087957129, 114748025918769590186121, 114259187209612380090505, 114748025971546148319369, 504423767486869353297767836478877833, 54689734326235273, 114065496695905621913737, 54342288660246665,
  54373074994213001, 54483026242973833, 54381871030612106, 54342288618303626, 114065496396838425604234, 114259187236000654962826, 240527995818552521776944918666, 54483026115047562,
  54689734305263754, 54351084728103050, 54342288651858058, 54351084749074570, 54390667167674506, 54689734349303946, 54689734363984010, 54351084835057802,
  501665359780772394078379034047164554, 54351084839252106, 114609675281042281345162, 114692685651364206882954, 240218510292222342644470132874, 113982486039710761234570, 54390667262046346, 54381871173218442,
  54689734431092874, 114748025918769732792458, 113964039286840818151563, 113964039304433004195979, 114748025936361753161867, 114047049679152976244875, 240527995818552662514454245515, 504018119101368576132257112158908555,
  114692685651364066373772, 114748025892381288050828, 113964039330821283262604, 501827617452148838416663097653604492, 113982486132069597458572, 239038599208787492147730329740, 54425851506208908, 238999913582559700868856295564,
  113964039220870286160012, 113964039286840983826572, 114692685686548604137612, 113964039304433169870988, 239038599024319893081126088844, 239212684526811866807658360972, 114065496625536990982284, 54373074933395597,
  114748025918769571311757, 240527995818552556961298133133, 114065496432022783013005, 114748025883585218097293, 54483026123436173, 240334566921874627505504137357, 114259187420718629400717, 54689734326235277,
  54689734349303949, 54689734405927053, 54483026242973837, 114748025892381453725837, 114757249413951889879181, 240527995818552688902854946957, 54650152025075853, 54434647595036815,
  54610569455480975, 114498995089278781894799, 114618898960942266069135, 54483026131824783, 239367426782691758229606641807, 239812311521203372738717167759, 54351084841349263, 54654550056906895]

/-- A modulus under which all codes of the dictionary are distinct (used only in proofs). -/
def japaneseModulus : Nat := 228916

end KC.Bip39.DictData
