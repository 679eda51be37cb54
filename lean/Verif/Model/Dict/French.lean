/-
Generated from bip39/src/dicts/bip39_french.txt.
-/
namespace KC.Bip39.DictData

set_option maxRecDepth 100000 in
/-- bip39/src/dicts/bip39_french.txt: the 2048 words in order, each as the number whose base 2^21 digits, least
significant first, are the code points of the word. -/
def frenchCodes : List Nat := [
  20338288213194358015210041875607059375325184097, 9357769593022674038239590578007683629153, 20338288213194439144809770856061100224879263841, 8592134145756259615995768997544971993185, 4624391420628953933905150483628129, 9698051554295420428706450256214496378977, 9698051716555006742957305108971795775585, 4624391343257821382405362414518369,
  8677204615792172009569600025066739859553, 20338288213194479709706349374963857811795083361, 9698051554295729913633261266145667711073, 9698051554295478457118121655498457481313, 4705521194443335422800932888379489, 8592133780672925435855035608053271494753, 4746085936279330968084737127612513, 8592133821237822014558405744804631674977,
  4137613590141378407361062715261025, 9187627841655026046503955880508083142753, 37788605067463065344490857421886255685801887538348129, 4746085994307724192647588404527201, 9357769187374578679308644757544055603297, 20338288213194074061146762855498977479544012897, 20338288213194398579971220702712925718117875809, 20338288213194114625946627447183083712653820001,
  18019010627475851311374580212816118369371553889, 18019010967758299362009486749884039901095133281, 9698051554295710570930827830550434152545, 4097048635534374046232295048740961, 2243767215872296720212688993, 9698051554295729913596367734017785593953, 20338288213194074061514276332331967247498084449, 2205081626538121132087705697,
  8592134470274890645711844649096060076129, 42652482516500735609231371718245531590871116027002977, 18019011393112150439185783911817068663200022625, 4624391652742646736331684278435937, 1972967906065648856474845281, 4381002428013964443851838214635617, 4097048983704991648501423656665185, 20695099796088562194135885009367903446828580961,
  18197417014417785127211276124361446425555370081, 18197417014417825679070798641433478363300757601, 9698051554295478457173461852535218241633, 18019011818464906266378883510780350522391003233, 9698051554295691228007033576021848752225, 9698051554295729913697824857209515802721, 4624391343257756818801104435282017, 9698051716554677915134369929836279890017,
  8592134429710129466774058340301246824545, 4705521059043588285730244196827233, 4097048983704954755083644981739617, 8592133740108183599804150109620093845601, 4624391343257756821695019041685601, 18197416674135215369449205235286544750011744353, 8592134389145116831302685610814818222177, 20338288213194398579719764132233096043924815969,
  8592133983496808701464381103763858915425, 10208475753713954783568079528158574936161, 20338288213194074061146763039966431410785353825, 4624391343257618468158978968780897, 9698051554295401085856442890019827351649, 1953625120621882521740640353, 4624391343257775265518789872058465, 9698051554295459114175880612915705806945,
  37788605602680014305457234651660294164010443504353377, 4097048848305345968580314974388321, 2205081626538099141867733089, 18019011308041031366204759092313407685377654881, 4624391343257673808439578613252193, 8592134145756066187790843715766567567457, 8592133780672925435818142119905867071585, 9698051554295729913743941717393802264673,
  9698051554295729913725494999708371779681, 9698051554295594514024474701243023884385, 18019011052829296740320118678219445934762229857, 4097048983705010095245497382994017, 18019011818464176112244666200864873583617245281, 1953625203632222057351086177, 20338288213194155203764205098456846623911706721, 9868193102839281868935202138475166957665,
  20338288213193871250029753975070924556533235809, 8592133942931950808534812614124057395297, 9698051554295749256501715306045333569633, 9698051554295594514052144865732099833953, 20338288553476116463841053086435640337688952929, 3934789455419069454734803014254689, 8592134429710129466774058349097356623969, 18019011308041153073506008762347885101991329889,
  9698052203332547088391464339094414295137, 4746085839565210058607415254843489, 1953625175962083956556300385, 42652481802875953452482840275111509199189858678997089, 18019011393111988180025011604806740421942181985, 4462132259856545466515290150928481, 4381002350642684318351081978462305, 9698051554295401085893336422147724148833,
  2205081774112100110064156769, 18019011308040625718012686068128335961587187809, 18019011052828850527308838341470176269840679009, 9698052203332547088317677428770273755233, 9868193102839204497738087087205674647649, 8592134429710245523717304874193232330849, 18019011818464703442050733338167141877199929441, 18019011052829093916108025375065913633936506977,
  18019011052829296740436175667582905981702504545, 4462132066428460445008418194849889, 42652482516500905723682616252499122842591340313706593, 1953625120621873725662298209, 18019011903535457431581521221264673731371860065, 21408725343852727702153308378304392294643531873, 4381002350642638201490897706680417, 9698051554295807284848823096673268924513,
  8592133780672925435947269306431611863137, 4381002428013964443825449958637665, 4462132143799666783537277660299361, 18019011052829256175346168916084838466733473889, 8592134186321330279915706592472577605729, 9187627841654909989616049460090016628833, 8592134226885936716191784939290871464033, 18019011988605886902442593752835588630803120225,
  10208475753713954783485069258991735930977, 9698051554295710570820147357312111083617, 38162749486620371958758072679186007637147978553098337, 9698051716554890685894154650639818293345, 18019011052829053351520931773750903892504215649, 19267852783946687117866545728221930540863848545, 9698051554295575171091457096667822555233, 20338288213194398580009906421174371394888138849,
  9698051554295826627809510892125837852769, 19446259766382195125091051077890353296461267041, 8421993327379008507452345234566605176929, 8592134389145329602320724744252243837025, 8592134470274948674224973070416710991969, 4624391652742646736261315565715553, 8592134429709936038735153658429219799137, 4705521155757561621131831143301217,
  19624664707123826125219091297817507125442642017, 18019011818464946831198090777227710269503832161, 20695100902005605650001196998213989586264129633, 8592134389145116831431812850117135827041, 4097048945019411537728658741395553, 20338288213194398579932535076485314759163379809, 20338288213193911801889276455249485939058147425, 9698051554295768599259488934279291863137,
  9698051554295710570875487664300034621537, 8421992840601371447943393391704436375649, 40407615287935856711995055514722867766911638540648545, 8592134145756085530677744556914545524833, 4705520942986617368996678815711329, 18019011988605765207926943394248153117879173217, 9698051554295691228007033589216019742817, 4705521291157216524534927851520097,
  20338288553476846630586784398996967441259561057, 18019011988606089726557973082653657772075253857, 20338288213193952366708483887717546747576189025, 9698051554295691228117714066852416585825, 9868193143404062390575421878467186131041, 1953625175962163121406083169, 4097048654877214830248443139588193, 9698051554295517142716679150346916855905,
  1953625129845280946901745761, 4421567556706166925571563127308385, 4097048654877159490007425920008289, 8592134510839729195717618888605368844385, 18197417014417825679283569585685697078547710049, 9698051554295691228007033606808207884385, 20338288213194236320404249412545934384116531297, 8592134226885840002089322201644653346913,
  8592133942932279636320854261131712135265, 4097048654877030362737337304088673, 8592134145756066187864630652479012339809, 9698051554295691228117714014075862646881, 4097048945019356197518427851587681, 8592134226885917373470904825592638603361, 18019010967758299362125543628567119068695363681, 4624391343257701478507310693220449,
  9698051554295401085856442872427672764513, 8592133780672828721909370195033611829345, 4624391420628972380605243770011745, 4097048964362196981411430608666721, 8592134145756162902040880291653294751841, 20338289574323257791514336221660511535733145697, 1953625046834906226933891169, 2127710466316505233494114401,
  4624391343257766042146753048739937, 4097048867648048401936745404301409, 4624391343257784488917215037358177, 2089024784748644461193461857, 2089024710961628583940849761, 4097048848305290628308511462785121, 1953625074505000347221622882, 9698051554295749256501715279657031434338,
  4097048732248282818086798582874210, 18019011988606089726557973193334069437736681570, 18019010627475851311413265765256836596398817378, 20338288213193708978006010882797394812978856034, 4462132259856536243156447410520162, 8592134226885840002126215733772495618146, 18019010882687626502213827446803719772050554978, 4462132143799648336784407830462562,
  18019011818464460053000089706421436738082701410, 8592133942931950808488695762735853469794, 18019012073676072984581850678510021599953944674, 37788606673172781131548649071206275285778582393061474, 20338288213193952367056654542213282033330815074, 9698051554295517142624445487152933896290, 2089024784748644461149421666, 2127710466316544815868674146,
  4097049003047813985764701905092706, 8592133942931950808617822988844006375522, 4462132143799805134135422640717922, 9357769593022770752360500059727623880802, 18019011308041031366204758907846024122870005858, 4746085723508294482194031875981410, 18019011052829499564338784053148888349118824546, 20338288213193952366998625982967974140158410850,
  20338288213193749542902589438593622955127734370, 8592134470274968016890512995874267725922, 9698051554295517142716682088241954816098, 4097048983704982425160173129564258, 79248446449573073792474397696455933727842348337258725113954, 9953263167226866789765381086918431735906, 4624391343257655361721893174378594, 8592134226885840002190779364418766504034,
  8251851454316941579460585658880370933858, 4097048654877030362803307968200802, 8592134226885801316592221816793786744930, 9187628166173231534303859872432788602978, 4097048945019383867647732521893986, 9357769593022944837540173911009186021474, 8592134145756085530825318434737412374626, 4097048828962532854684675532128354,
  2263110158113348099080454242, 2127710337189309911639523426, 18019012073676154114316979323090762816295010402, 8507063797414727473033388405216201670754, 8592134389145116831302685645999196602466, 18019011052829053351520931773750903892489535586, 8592134024061937393842106940567494590562, 8592134308015787901881069368377203490914,
  9868192900015495317336085567683289940066, 2127710466316549213931962466, 18732635664817926771630519871627382592219644002, 4097048848305345968589111071604834, 8592134389145290916620710205376912425058, 8507063797414727472978048124616567685218, 4097049003047721751969566589714530, 20338288553476278722827740038527855083135172706,
  20695100902005443390840424792660775740607823970, 9698051554295420428669556741678819180642, 1934282325954818916944445538, 9698051554295749256520162063313182654562, 9357769593022964180500861754840268669026, 4056484125811923729391648625393762, 4097048867648048401879570784976994, 1953625175962114742886072418,
  4624391343257766042146753034059874, 4097048674219917263582883297099874, 4462132259856527019793206678126690, 4624391420628880146924457626173538, 9698052203332547088280783931826765824098, 20338288213193952366766512271718794736592486498, 2224424587225929778817138786, 8592134389145348945087721788503503143010,
  1953625139068666177885569122, 1953625194408907195107246178, 4097048828962366834062778949435490, 4867780567986466781423449365545058, 4097048770933964386048725982642274, 4462132259856619253544361551462498, 9357769349634087622270150873847710089314, 4097048964362196981481799338164322,
  18019011308041153060855809115027609535792545890, 18019012073676559762412338392387203415177953378, 4624391652742646736349276489646178, 8592133983496808701510497941957925404770, 9698051554295517142781242737012710047842, 1953625212855567705939378274, 4664956239836165040988696006885474, 8592133983496808707579476759800553930850,
  18019010882687626502271855996825655628403834978, 20338288213194074061398219444425590809902973026, 8592133821237493186606343313172713177186, 20695100902005443390705025036300350607255928930, 8592133983496808701519721349179152269410, 4097049003047813985725119522144354, 18019011818464946830965977038308454337762820194, 4624391343257627691592588497780834,
  9698051554295845970558061117536607404130, 8592134429710129466921632279696813064290, 9698052203332547088437581260851349815394, 1953625129845307335176618082, 8592134510839729195883639589666797125730, 4381002350642702765147932256632930, 9868193102839204497793427319426813788258, 4097048828962394504112918828679266,
  9357769593022964180482414984378298925154, 19624664707123785560167770301674254687386206306, 4746085723508294482185235824902242, 2127710410976312594781962338, 9698051554295517142790466188214408314978, 9698051554295613856754578270541028786274, 4624391420628981604043251320356962, 8592134145756066187790843755349011333218,
  8592134470274968016890513039854766391394, 9357769593022867466250825086594568945763, 4097048867648048401879570755616867, 18019011988606089726557973073430215366438551651, 4746085723508294482123663131803747, 1953625175962092752624156771, 18019011478182093145059996673990031082092757091, 9953263735134471091786960104658300829795,
  9357769593022964180482414984378256982115, 20338288213194074061514276323108608404778647651, 9357769349633990908093901199489028325475, 8592134389144981431684675775030357917795, 4624391343257710701927726015578211, 18019011052829337305216697298579273936824959075, 18019011818464460053000089881665496642230419555, 18019010627475851311490636962371958234637402211,
  8251852022237021995783790342668862619747, 4462132259856591583393066585686115, 18019011478182012002423211756268965598374920291, 2089024710961650574125170787, 9357769593022983523166401631919317975139, 2127710466316527223682629731, 8592134226885840002264566323121410277475, 9698051392036298342025667648883364200547,
  8592134145756066187790843728960690323555, 9187627841655006703653948518711448043619, 8592133780672828721909370261004265455715, 8592134145756433701406027272893186965603, 4624391343257775265549576185053283, 8592133983496808701575061612186570850403, 18019011478182093132080969037713936891586281571, 8592134226885956058977228648450982150243,
  20338288213194358015210041838713645994694672483, 9953263735134277663628151687462202114147, 8592133942931950808580929500696587272291, 8592134470274968016982746742631086162019, 9953263167226866789903731667471244984419, 4462132259856693040507462220775523, 8592133821237493186569449869005723533411, 4624391343257673808470364922052707,
  4097049003047813985769099951603811, 8592134389145348945226072373454341931107, 4624391343257766042199529562832995, 9357769593022770752360500068523716903011, 20338288213193952366882569076614858026868801635, 8592134226886014087444240284354118418531, 4624391265886421353147291880390755, 18019011308041031366204758935519012157814472803,
  18019011818464946831198090897131529156402610275, 18019011988606049161738765806985802310525911139, 8592134145756433701341463651043025879139, 20338288213193952366998625982967943353841221731, 20338288213194317450429520290727657157571903587, 9187627841655006703700065370099637289059, 4097048828962366834049584788930659, 84740909719749186800722431159421259599484152850071374790755,
  4097048964362113971120273484677219, 4624391343257719925326151157809251, 9953263167226866789940625155618672476259, 4624391343257766042190733478199395, 9357769349634029593738575563317831532643, 4097048964362113971045506700279907, 9698052203332547088317677362799565602915, 8592134389144981431721569214799280078947,
  4097048654877150266560622249377891, 18019011818464906266166112667985215416495505507, 9357769593022635352650256398021524717667, 20338289574323257791494993574567338947922362467, 4462132259856693040432695444766819, 19624665217547295377027057659999294828824232035, 20338288213194317450197406561031707291994292323, 8592134429709936038716706918753535787107,
  18019011308041031366204759027749794631299104867, 42652481802876123594477597186517747044953664989954147, 20338288213193911801889276612046753390963720291, 4381002350642721211821637201035363, 2127710374082784864916996195, 8592134389145058802909460981992849932387, 9357769593022867466306165349602037858403, 18019011818491354528211903166092625438799036515,
  2243767344999509634236547171, 18019011818464946831159405280127246253812613219, 20695099796088197110724327473413383550488543331, 9698051716554987400033510810462755749987, 1953625185185513168005234787, 18019011988606089726557973193334104622123450467, 4097048848305290628348093847830627, 1953625194408911593139077219,
  4097048945019227070261533347938403, 8592134226885801316592221764017237000291, 20338288213194398579932535076485301565004972131, 8251851819412925959267086107594413047907, 9698051554295691228108490672825308282979, 20338288213194074061514276323108634793074491491, 2205081626538160714518888547, 4097049003047813985764701921869923,
  8592134226886014087444240275558042173539, 9357769187374888164290796070065112350819, 4462132259856674593772184621023331, 2089024784748662053352243299, 9357769593022944837577067394758564905059, 9698052203332547088326900734836428767331, 9698051554295749256520162001740531499107, 4097048964362206204765875256426595,
  9698051554295517142808912853123261792355, 4705521155757561621140627223740515, 9698051554295613856736131478088788738147, 4705520904301064928274053723062371, 8592133942931950808654716437409029947491, 4097048751591114378700123482882147, 8592133942931950808580929487502470807651, 18019011988606008597112986671673889316805804131,
  4705521117071898499953559894753379, 1876253923506747689379299427, 8592134429710129466737164786183153123427, 20338288213193952367037311710652655514343702627, 2205081626538099141880316003, 20338288213193952366766512271718750756127375459, 4097048945019273187117319587889251, 4624391343257719925277772667158627,
  41155905910308894888605758291138369825639514419232867, 9698051554295459114221997433517577863267, 9698051554295401085856442907612030173283, 8592134389157941116434051111635818381411, 8932416756065919895148050382462155489379, 8592134226885840002190779338030508408931, 20338288213194398579681078579792430593470365795, 9187628003914206161614856556430120452195,
  4705520904300963471199240512864355, 18019011052828931669790880828067563106224570467, 18019010627476378653811504193548266169937428579, 9868192656626193217373667609071214133347, 9868193265098558698056331831674868334691, 18019011818464460053386945977921490110872813667, 9698051554295517142661338957708196315235, 20338288213194074061204791350180760279595352163,
  20338288213194398579951877972609488361552347235, 18019011478182295956428462290918698303667306595, 9868192656626193217410561101616679747683, 8592134632533954704063966209872993714275, 4462132143799639113425565144580195, 1953625092951797197518667875, 4381002505385032431738572232458339, 9953263167226866789756157714881597931619,
  8592133942931950808488695780328068874339, 18019010967758299361893429834307613323627069539, 4664956471950051534263188115685475, 9868192656626270588644569711402337435747, 18019010882714845495631128706376098841853165667, 18019012073676559762412338327823590361101500515, 8592134186321252908718591506018713206883, 2127710466316553611991056483,
  1953625046834959003477344355, 8592134389145348945198402266139899986019, 8592133942931950808617823002038175268963, 9953263167226866789922178424739123429475, 9698051716554968057340300839263366283363, 4097048983704982425217347755180131, 1953625028388126968843862115, 8592134470274851960048723431242430677091,
  8592134470274600503598147424853203877987, 4462132259856739157292879739617379, 37788606673117400176940738469650734472597650207146083, 42652481802877059370499851685348060755106500003758179, 21408725343852727702172657205056785594668023907, 9698051554295710570930827839346558632035, 18019011988606089726557973202557432678534086755, 9698051554295575171063786949770936844387,
  2205081626538121132119162979, 9187627841655045389317069644206167818339, 18019011818491354528211903230656229696803438691, 4097048945019300857273012577108067, 9698051554295749256520162063313195237475, 8592134145756046845152973959196124905571, 9187627841654832618225243569658301251683, 2089024747855169507905503331,
  9698051554295729913697824901190010273891, 8592134510839729195791405785735371948131, 20338288553476440982278654523798910670234189923, 37788606673172781131548649129234696180514718878793827, 8592134226885840002255342929094364889187, 4097048945019420761083103416418403, 20338288213194155190920577264658015760829907043, 20338288213194479709474235755948403174833913955,
  9698051554295575171239031036063369920611, 4097048674219917263600475495727203, 8677204615792191352382713859133575004259, 9698052203332547088382241041824366985315, 8592134389145348945179955434105281183843, 1953625120621856133499322467, 18019011818464257229155509815537263558994690147, 8592134510839729195791405838511938469987,
  9698051554295613856736131478088765669476, 4624391343257673808443976642986084, 4624391343257655361704300979945572, 9698052203332547088382241024232138997860, 9357769349633836165690447658942487068772, 37788606673117315106349008235028679749246957752680548, 20338288213194398579835820983248917831153090660, 42652481802875698241397251517124692696783723689934948,
  42652481802875698241032168202287401970654873552683108, 43400772246842519618028343392671033067274205533306980, 20338288213194074061127420060834834177624899684, 37788606673115783835413910354863232856286557313695844, 42652481802876889229316391293481401866812253643210852, 20338288213193749542728504139018723555966713956, 42652481802876889228991872817194227595365364803829860, 20338288213194317450313463264473598479774515300,
  18019011818464460053328917529359514186261987428, 42652481802876378806049963871693900670679235847782500, 8592134145756046845005402900521025536100, 38162749486620371958514683821964456500608051124895844, 8592134429710129466774061221021713694820, 38162749486620286888369166289143936031682037695905892, 20338288213194074061282162593415622822551617636, 42652481802877484723133984575562194854048881734320228,
  20338288213193871237031383581024082852531142756, 42652481802876889229843733962519195305157096391049316, 42652482516500905723966570199715047717862686349852772, 42652481802875868381891110117860753048035617690091620, 42652481802876548947436248127477203804481613503397988, 8592133780672828721854032918299702984804, 20338288213193871237302183010734619971939205220, 20338288213193749542825218186138247105536327780,
  20338288213194317450429520161600444243558531172, 20338288553476440982336683000036838913075052644, 42652481802876038523155700051421837956132779405082724, 20338288213194439144771085275953234568684765284, 18019011308041031366127387830634730167658872932, 20338288213193749542960617997841824762912833636, 9868193265098481326923783230199429070948, 42652481802876974300110945566105464977037862824312932,
  42652481802876974299583602974438960887517434676772964, 42652481802875613170115919297956359844423974785122404, 20338288213194358015132670687718282853389172836, 42652481802875953453010182673343840844623374048034916, 20338288213193668413206146549370612720554999908, 37788606673117315106308443415821533205723689781297252, 18019011988605846337642729207268338183901806692, 9868193265098558698203908682577174593636,
  42652481802876548946868340735946292498295689341567076, 89448739014561406532383934729432403153453404834127994159204, 20338288213194155190920577319998278768250585188, 20338288213193952366998626130541917933750190180, 42652481802876038523155699896679388385692466171347044, 42652481802877059370905499896757884418417340698329188, 42652481802876889229803169259368890551150081772355684, 37788606851523191623393791173416998929939373225934948,
  20338288213193708978006010882797438793452355684, 9698051716554890685931048182767679438948, 9698051554295613856754578279337088254052, 4624391420628981604052047379824740, 4097048828962357610602781151854692, 18019012073676154114336322163874664615143014500, 9868193102839204497682746767023607382116, 4624391343257775265492401597186148,
  42652481802876889256251431189102408515494616514953316, 20338288213194317463041034311820229405822681188, 9187627841655045389224835915041508163684, 1953625139068617799361364068, 4624391343257784488904020870561892, 18019010967758299361990143779972925188246339684, 20338288213194439144751742416719637606926647396, 8592133821237957414277872681790591729764,
  18197417014417825679070798641433513547683332196, 9698051554295478457062781423277343506532, 20338288213194398580067934749835422347141578852, 20338288213194358015132670687715406530979299428, 20338288213194236320558991926679974557264117860, 18019010542405786923576888392268244958245290084, 20338288553476765500948369792315284846372978788, 9698051554295710570820147449671073136740,
  4097048828962422174215835240890468, 9698052203332547088391464347890511511652, 1953625129845245762519171172, 2243767271212533339413020772, 8592134226885840002089322250023152386148, 18019011308040909671631080192927421547132485732, 9698051554295729913697824848413445849188, 20338289574323257791514336221660533525951021156,
  4462132259856600806769501516333156, 4624391343257719925308558992736356, 18019011478182093132293739981966102830270906468, 9698051716554910028882512579795131301988, 4097048945019411537750648967659620, 4097048732248282818139575170367588, 4624391652742646736327286257090660, 9698051554295517142781242816177540956260,
  19624665217546889728854327255237292776396685412, 20338288213193952366921254702842521762442248292, 4097048828962357610690742094659684, 9698052203332547088234667102428817522788, 4624391343257775265571566446968932, 2127710374082855233675853924, 4462132259856573136596216353652836, 4624391343257738371995458103935076,
  9698051554295710570912381095272849080420, 20338288213194074061146762864722375904709312612, 18019011818464946831198090851014695360435060836, 8592134024061918050927536018493368434788, 8592134632533954703971732498300551561316, 8592134145756066187790843737756825288804, 4624391420628870923570012970025060, 18019011052829580694247997868180165984788676708,
  20338288553476806065709548720878146838935371877, 20338288213194398580009906292047105705694462053, 18019011648323641675903723750918575879893287013, 18019011308041031366127387719954217348290838629, 42652481802876889229316391158081793077375428007559269, 18019011903535335737123899283571996346495795301, 8592134389145232888282825694428251816037, 8592134429710168152464849546723526180965,
  4097048828962477514448057749471333, 37788605067463065317799206557566076889495108904288357, 8592133780673002807199724594321663459429, 20338288213194398580067934860515816422047219813, 20338288213194358014861871322568403302202998885, 42652481802876463903292780016023189977686576314974309, 41155904839872444794523687234491088329841120284508261, 4746085994307797979632680740847717,
  4097048848305345968514345673424997, 40407616001560723911548403540018857197022946841854053, 20338288213193952366766512271718750757507301477, 20338288213194439144809770966741564668543762533, 9698051554295401085736539057938759680101, 18197417014417825679070798641433460771118907493, 8592134024061705280020177287925542682725, 4705521233128906310184068800577637,
  20338288213194601403777115142613503861959164005, 19624665217546889728834984626590837874026872933, 42652481802876974299908121605468501716127207481409637, 9698051554295691227933246573340134473829, 20338288213194398579719764132233113637509660773, 42652481802876889229559780092668324779244038834356325, 20338288553476238158298674811990730091347837029, 41155905910309660523971882262203679490546971116044389,
  43400772246842519617501013354490267523272130756083813, 91018016319010283700966529099052909933631576789806366064741, 8592134551417217945647414503215208595557, 37788605602680014305781740323005223970766874392658021, 37788605781087422094086139695217259973878219794284645, 4097048732248411945317306191577189, 42652481802875698241032167912145380504305464520999013, 9698051554295420428734120359132328362085,
  20338288213194074061340190986637313749471461477, 20338288553476440982278654486905409328658776165, 9357769593023080237351874585955873587301, 37788604175433937940740215381533186182564868264034405, 41155905910308894888605745640938630271669969325391973, 9698051554295613856717684751607267328101, 19624665217546889728854327384364470507417895013, 42652482516500480371048484019928413649031477841625189,
  20338289574323257791475650632326362335868354661, 20338288213194601404047914470866992556444483685, 20338288213194398580009906421174371394881847397, 8592134429709936038762823827316331774053, 41155905910308894888605745505539049155295944015609957, 20338288213194317450100692301771732980173111397, 18019011818491354528211903119975738866258673765, 8592134551404238918112595409069745897573,
  8592133983496808701519721322790864814181, 20338288213194439144616342724922759556951441509, 20338288213194358015210041930947304790618538085, 9868192900015379260595753077864652603493, 8592134389145116831487153042755837493349, 18019011052829053351578960148528797438237999205, 8592133780672925435818142062731272912997, 20338288213194114626275455205554671784353071205,
  9698051716555026085715078671235068985445, 9698051554295478456988994398604004163685, 2127710410976264216255660133, 20338288213193668413206146494027451400468824165, 8592134186320982109233540714689323860069, 20338288213193668413167460766342704055615225957, 2263110065879627730543181925, 9698051554295768599222595419743585304677,
  4259308125134411758001711136899173, 21408725343852727702404764948784265949307994213, 20338288553476278722827739992411069665656176741, 18019010882687626501884999679208799245965459557, 18019011478182012002577954159722572115641106533, 20338288213194358015210041801820166643395854437, 18019011818464257229155509778643810595924607077, 4624391343257673808474762995826789,
  20338288213194317450429520253834195398450741349, 20338288213194479709319493232591021751119380581, 89448737517866874057526201421088629622916713454579400835173, 9698051716554774629015471690219507417189, 18019011308040625717857943443313857734440386661, 9698051554295826627754170686292984070245, 4097048848305382862103646780260453, 9357769187374578679253304586896983195749,
  42652482516500820653293710268656080507891102731206757, 18019011478182012002752039440853577376622182501, 20695100902005443390859767439753961523914997861, 8592134145756433701240006576231210287205, 37788605067463490670352209325801373106925672316534885, 79248448694440302413329690624023604884064587088292707565669, 4624391343257673808457172191805541, 37788607208334093953188646698614154433983485711482981,
  4097048867648048401941144816058469, 18019010627476419218978882096044652314855735397, 37788604889057358940761504776282504810222621894377573, 8592134510839729195846746079530519101541, 18019012158747313751846412200692144521386917989, 42652481802877229512170090197832335476123924674117733, 43400772246842519617987778341350147601596694570991717, 18019011818464825136450326854965113914721828965,
  8592134308015478416880471404142819016805, 9698051554295478457062781423278736015461, 19624665217546889728834984571250658430855151717, 4624391652742646736322888216871013, 41155905910308894888646310402117604951502095931932773, 20338288213193952366882569076614774464022839397, 9357769593022674038119686807499304861797, 8592133780685653006883938410810474233957,
  37788605602680439685634866591841041943529676532088933, 4624391420628981604025659130118245, 4705521059043615955837558699589733, 20338288213194479709474235765171797201917050981, 9698051554295826627625043464582888161381, 8592133780672925435855035608053307146341, 4746085800879583831014048467517541, 9698051554295691228062373834631287930981,
  4097048848305235288124668835266661, 8421992516082798446795786499248216866917, 8592133821237493186707800453956629430373, 37788606673172781131548649032520529154300359378731109, 9698051554295575171054563626113967325285, 18019010967758299361990143779972955975964426341, 37788607208334944658862560284271423949128529826807909, 37788606673115953976637935720673538783646585620267109,
  42652482516500480370318317138797169483241327006056549, 19267852443664685280300948031808459900601761893, 19267853294370602582318278894979915455066538085, 18019012073676559762412338281706734576254058597, 4097048770934028949595809371914341, 9698051554295691228007033606809577324645, 20338288213193830672308890417036509663872417893, 8592134145756201587611767793537819607141,
  43400772246842519617784954342027641126312927092015205, 42652482516499544594377192162324676005500248794333285, 18019010882688153844515351837196112715742969957, 9868192900015379260595753148234778804325, 4097048674220027944082511306424421, 18019011052829499564532212073606746982670401637, 20338288213194439144713056716705032762308952165, 19624665217546889728834984442123467507074334821,
  40407616001559022500322271058439690407498911565480037, 37788603997027380858515377612966245759057343335628901, 9698051554295729913633261283739260944485, 38162749486620371959244850393610700065592829538205797, 20338288213194439144809770911401411612252307557, 2243767234319010007640703077, 42652481802876889256251431189102417738844663168630885, 9698051554295401085921006476685660389477,
  20338288213194074061340191023530806294960144485, 20695100902005443390859767513540880642787508325, 18197417014417785114599762038705217142813360229, 4097048964362224651518745084166245, 42652481802877059370986629496492887731447167251906661, 8592134145756336987285117821959618429029, 9698051554295401085893336378167282106469, 9698051554295575171054563573336048140389,
  20338288213194398580009906421174336210532827237, 18019010542405786923654259524819700765880746085, 4624391343257701478542495069503589, 9698051554295729913725494946931843006565, 18019012073676559762412338392387177026917761125, 42652481802876123593788007948872831713215035717189733, 20338288213194317450313463347481057294949548133, 9698051554295710570875487655503954182245,
  20338288213194114626101370007434045642793549925, 4664956239836340285110172818341989, 18197417014417785114464362282344849184053526629, 18019011818464460053000089844772043679231639653, 9698051554295729913660931395450417709157, 1953625120621851735402479718, 21408725343852727702153308378304370304383713382, 8592134470274968016890512956291840737382,
  4097048828962422174215835211530342, 8592134389145348945235295675122452529254, 9698051716554852000277150341348911480934, 8592134429709936038606026485097589375078, 4867780567986466781388264964096102, 8592134145756259615995769032729341984870, 9698052203332547088234667089234648629350, 9953263613439878070129800529868515967078,
  4097048867648048401949939499794534, 18019010967758299362125543600896994161996071014, 20338288213194155190920577172424326178565783654, 2089024710961676962404237414, 8592134510839535767660267524232214216806, 4462132259856536243196029829120102, 4137613590141387630733099567939686, 4624391652742646736340480367263846,
  4259308221848569560927598005977190, 18019011308040909671921222325074231001754894438, 42652481802875698241234992240295488556764182534422630, 42652481802876889256251431189102390071684039819919462, 4462132143799740573407487083937894, 1953625129845272150777266278, 4624391652742720526179903492587622, 9698051716554910028734938609613247873126,
  9187627841654735904270357731292880044134, 4624391343257710701954114303033446, 8592133780672944778788056154921603432550, 9698052203332547088409911157934897758310, 19267852103382642877742057815486705177070665830, 8592134145756259615995769067913722462310, 4097048945019402314391806231445606, 20338288213193952366998626148991538329878003814,
  4502696846950229791899751551074406, 9698051554295575171091457039493203230822, 4137613590141387630653934747517030, 8592134145769025872614005989084418277478, 4097048945019411537702270443454566, 18019011818464946831198090777227705871438446694, 18019010882687626502233170223024065691443527782, 18019011818491354528211903129199150485521563750,
  9187628652951139393122615500030427005030, 4624391343257710701927726032355430, 2263110158113356895173476454, 9698051554295691228108490664029215260774, 20338288213193708978006010882797403609088655462, 2205081663431631269751947366, 1953625120621908910023901286, 1953625129845294141018210406,
  8592134389145348945226072373454358708326, 2205081626538187102797955174, 9698051554295691228007033523245307396198, 4097048848305272181529253355978854, 8592134510839729195883639501705854320742, 20338289574323257791514336396904545051580825702, 4746085723514455694648680191623270, 8592133983496808707579476759800541347942,
  2205081774112056129596948582, 9357769593022770752397393486302414897254, 4462132259856536243169641573122150, 1953625175962141131158847590, 20338288213194439144867799240062444970948165734, 4097048674219917263622465709408358, 9187627841654832618400487638358529409126, 1953625092951779605332623462,
  18019011052829499564338783905574909371192705126, 18019011308040625718012685929777751010723233894, 18019011478182093132061626399844153932875038822, 4624391343257618468233745776246886, 19624665217547254811937050843937636250025984102, 20338288213194074061514276415342355161634832486, 8592134226886072116021932349515169267814, 8592134145756201587648661277285812273254,
  4097048945019254740439216576004198, 18019011818491354528211903110752445994243194982, 20338288213194074061340191060424373607197573222, 8592134389145348945161508777992480882790, 4259308125134531661868976576659558, 8592134145756201587537980733678724055142, 4097048964362113971045506721251430, 20338288553476278722827740038527855083147755622,
  9698051554295652542445369459369712812134, 9698052203332547088437581199278698659942, 18019011988605318995031726069724186809034866790, 9698051554295613856754578204570324828262, 4462132259856619253473992813576294, 9698051716554871349279146794553110954086, 79248448694441372849099220093934592032797131534404633493606, 4097048945025415952889466828357734,
  8592134145756066187790843698174400397414, 19624665217546889728854327273683988471600906342, 9357769593022964180482414984378292633702, 8592134145756317644555014353816689573990, 1934282279837958732683149414, 8592133942931950808571706115465628614758, 9187627841655045389270952810410173005926, 9698051554295729913734718345356964266086,
  2243767289659330189686997094, 8677204615792191352456500787049901588582, 1953625194408858816608206950, 4624391652742646736322888223162470, 10208475753713954783485069232603471544422, 4137613590141387630719905470349414, 4462132259856591583419454906695782, 2205081774112122100313489510,
  4624391343257719925277772637798503, 8592134024062034107769325517154493136999, 8592134024061918050927536000901140447335, 20338288213193749542573761624881776274043830375, 20338288553476765500870998502966442839569858663, 9357769187374578679179517623794875236455, 4624391420628972380662418330615911, 18019012073676154114220265340531967202273788007,
  8592134145756259615958875601756527525991, 2127710466316580000240762983, 4705521155757524730572782673330279, 37788605959492532976860035125111262978049320746483815, 8592134145756433701341466558151769718887, 18019011393111866485199876116494180535758749799, 40407614574312776020910630756907286862465327790293095, 4097048770934028952520510270341223,
  2263110158113365691258110055, 4381002505385207675789680266182759, 37788605067462554894248825111185255602862517422915687, 79248452061741323665376061288479324932111456660285122674791, 40781762561587953270812688673270669165757769042624615, 1953625129845294141009821799, 9187628003914341561352770285868266029159, 4624391343257766042217121757266023,
  4624391343257673808395598148141159, 4624391343257701478516106758979687, 4097048712905469704301110315974759, 1953625175962171917478133863, 1953625037611499005686055015, 4097049022390553312547707094564967, 9698051554295710570912381112865022541927, 1953625028388188541482434663,
  4097048945019300857273012564525159, 21408725343852727702095279911292809168061202535, 9698052203332547088262337178956963250279, 1953625129845272150798237799, 9698051554295575171100680459908582211687, 1953625074505061919902138471, 8592134145756259615995769054719603900519, 9357769593022944837530950622535227539559,
  8592134389145058802909461034769422745703, 4705521175100439298631728566894695, 18019011308041031366204759046196609073767514215, 17840605516593523628607795965855479398966231143, 4097048983705028542059939843014759, 9187628003914341561205196254113779679335, 18732635834958623454095178516072717292130009191, 4097048867648048401875172744757351,
  1934282325954757344305872999, 9357769349633990908195358243515954888807, 9868192900015495317492882813145002803303, 4624391420629046167563946413785191, 4705520904301074151628498404376679, 18019011818464946830927291439750875926457483367, 9698051554295575171156020670139484602471, 9698051554295652542417699378443520573543,
  9698051554295613856736131504477080387687, 9698051554295420428669556768067110830183, 4097048983705028542033551570239591, 4097048906333785310069321243820135, 4624391343257655361735087341174887, 9698051554295517142790466197010495045735, 18019011818491354528211903276773142657635450983, 17840605856875890549604293909880202802266898535,
  20338288213193952366998626112095112287423037543, 1953625046834906226931794023, 18019012158747313751769040902119917282238922855, 8592134389144962088973019020174867562599, 18197417014417825679032113153556430364986048615, 18019011988606049161661394572974307406398881895, 20695099796088521629355357263275980610122809447, 18019010627476662607913468729203512174606024808,
  9698051716554910028771832049382146965608, 1953625194408872010705797224, 4746085723508294482163245550403688, 4624391265886402906368033798750312, 19624665217547335941575465515182918704799154280, 9868193143404062390575421869671055360104, 18019011052829337305255382906360224384985071720, 4462132259856656147019314801672296,
  4056484125811923729466415386722408, 9272699244681451380240917395264285704296, 37788605781087081812165431400520721082145613205733480, 1953625028388201735607287912, 41155905910309745594523047793669240583098921782345832, 8592134226885840002200002736455621279848, 4462132259856674596644108984385640, 20338288213194398579835821140046242457684279400,
  10208475753713954783568079594129270505576, 20338288213194155191094662508895502086659113064, 2263110158113312914708365416, 20695100902005443390821081813526275796745846888, 18019011818464460053270889246812460289997406312, 2205081626538178306704932968, 4056484125811923729440027137015912, 8592133942931950808571706106669529301096,
  37788605959548934778568708503377673556730519448715368, 9698052203332547088336124164047894478952, 9698051554295691228062373812641046986856, 10208475753713954783586526307416675450984, 1953625046834945809337811048, 9357769593023099580081978142059724275816, 8592133942932221607946076433558041264232, 8592134226885956059078685740856414044264,
  18019011308040625718012686031234861008311812200, 10208475753713954783512739361908162822248, 4097048964362206204853836192940136, 4705521175100439298548165695766632, 10208475753713954783512739309131617271912, 4462132143799639113412371017629800, 4097048828962357610655557735153768, 4097048674219917263587281356193896,
  4624391652742738970021266538365032, 4624391343257701478582077481812072, 19267852443664644715423712409029875914722246760, 18019011478208987607273439665824521063554351208, 1953625139068644187673985128, 8592134429710052095604613343569709629544, 4097048828962449844428702805393513, 9698051554295691228062373812641030209641,
  4097048867647974614986838813704297, 18019011988605643513508007119676632012616106089, 19624665217546889728834984626590864262318522473, 1953625074504987153107255401, 9698051554295381742997212182574631223401, 4624391343257775265518789884641385, 8592134429710032752708489147977056649321, 18019011308040909671611737435153819701461647465,
  18019011308040625717857943553994282594276999273, 4705520942986580475508531384025193, 40407614574312010359015114985579883042146478152745065, 20338288213194317450313463347481057294926479465, 9698051554295710570875487655503931113577, 20338288213194114626101370007434045642770481257, 9698051554295729913743941721791855067241, 20338288213194155191094662472002018337297006697,
  18019011052828931657043966986050869107655442537, 20695100902005605649827111717082927152052043881, 20338288213194155190920577255434604141541851241, 18019011818464703442128104581399114903619371113, 9698051554295807284848823052692803813481, 4097048654877104149713632127615081, 18197417014417825679070798789007404564719075433, 9868192900015166495692809591667828981865,
  8592134024061956736655220730653835264105, 9868192656626193217447454550181678153833, 4259308144477261765288740979212393, 20338288213193871237186126132048682074163380329, 20338288213194114626275455297788392152900829289, 19624665217546889728834984626590837874043650153, 20338288213194317463041034311820229405833166953, 9698051554295575171054563573336027168873,
  9698051554295381742997212208962912387177, 20338288213194398579719764132233113636127637609, 4097048945019411537715464593473641, 20695100902005605649807768959309373684897022057, 20338288213194074061514276323108621598945443945, 9698051554295420428669556768067102441577, 18019011818464460053328917529356637863862599785, 8592134470274639189067577847525092098153,
  8592134226885801316536881584572676964457, 18019011988605643513682092493041401621232222313, 20338288213194317450197406505691554235715420265, 20695099966229461700715917089896720873335816297, 20338288213194398579893849597831612409380339817, 4705520942986580475526123572166761, 8592134429710032752708489178763384324201, 4097048848305235288124668824780905,
  18019012073676154114220265340531975998394073193, 18197417014417825679186855667690479334235045993, 8592134145756201587657884658118757974121, 19624665217546889728834984442123467505692311657, 20338288213194398579932535076485341147434057833, 9698051554295729913633261283737878921321, 20338288213194439144809770911401411610870284393, 18019012073676559762412338337046944805776523369,
  20338288213193952366727826571704167900356018281, 9187628003926953075364639512467959971945, 9698051554295729913633261266145701265513, 4624391343257701478568883338084457, 4097048945019300857273012585496681, 8592134429710129466774058340301284573289, 4624391265886532033545763440033898, 9698051716554852000369384061717459239018,
  1953625028388179745366343786, 9698051554295517142808912910297843368042, 4462132143799666783550471772569706, 4624391343257655361735087305523306, 1953625139068679371995742314, 9868193143404236475856552905716979990634, 8592134145756066187790843746552884756586, 2127710466316553611970084970,
  2030996299290295270637568106, 18019011903535457431504149959586026999968170090, 8592134389145020117357020290154112221290, 9698051554295497799820555007530836689002, 9698051554295575171109903831945436987498, 4624391652742646736336082350112874, 18197417014417785114561076384807512063476760682, 9187627841654929332429163320545093091434,
  4381002350642601308059924894318698, 2263110028986205553823842410, 4867780567986466781441041551589482, 9698051554295575171128350523242600988778, 20695100902005605650001196998213963197991354474, 4624391536685804946789042684428394, 2127710466316536019817594986, 8592134470274948674114292676343204151402,
  8592133780672828721927817018272156483690, 4867780567986466781419051331616874, 37788605602680609800126688943666298500613669847564394, 2069681897847864885841494123, 4502697059721137150639115438391403, 8592134510839729195883639563278499184747, 2089024747855085944986140780, 4381002350642601307971963934736492,
  20338288213194317450429520253834116233586278508, 20338288213194317463041034311820211813619859564, 8592134429710052095659953518616183308396, 4097048867648159082366003245482092, 1953625139068626595437609068, 9698051554295710570912381112864999473260, 9698051554295517142790466144233901260908, 9953263167226866789756157692891336015980,
  8592134145756259615958875544581922881644, 1953625157515388261333205100, 9698052203332547088234667071642462584940, 8592133942931950808516365878846417797228, 18019011478182458215511863382367121250550022252, 2127710410976303798646997100, 9698052203332547088271560577382067732588, 1953625129845294141001433196,
  9698051554295517142772019452936749842540, 4502696827607250657461380329767020, 4624391420628981604052047371436140, 8592134389145348945235295675122460917868, 4381002350642582864178979442524268, 4624391343257655364602613639151724, 8592134186321252908598690545861998411884, 8592134551404393660682069756230817022060,
  4097048945019402314387408184934508, 4624391343257673808483559069974636, 8592134510839729195791405882492361637996, 8507063797414727473162518520840903983212, 4097048964362206204765875250135148, 20338288213194317463041034311820207415590125676, 1953625175962083956547911788, 8592133780672925435855035537684541997164,
  8592134226886014087536473921159799242860, 4097048732254471700714732061196396, 8592134389145368294062048086014671454316, 18019011818464946831198090777227683881205891180, 9698051554295729913688601449988299423852, 1953625203632222057344794732, 2205081626538138724286333036, 4097048983704927084932350055809132,
  18019010627475851311413265839043830483439845484, 8592133821237647929194264351630935720044, 37788606673116379329069257087685832156677209203933292, 4705521175100393181740757954855020, 20873505757676158141890048440299718784879427692, 8592133821237647929240381229407395643500, 18019011818491354528211903129199181271847141484, 4624391343257775265562770341363820,
  9272699244681451380204021035192503238764, 4097048732248356605120268042502252, 19267852103382480618581285480806322397887070316, 9698052203332547088373017687379673088108, 8592134510839729195791405807725591920748, 19624664707123014828892973753352386573324255340, 4624391420629018497483020215255148, 8421992840601448819168178585472767885420,
  8592134024061918050927536036085541896300, 2205081626538173908671004780, 1934282362848333452648906860, 4097048945019402314391806252417132, 1953625212855655666863308908, 2089024710961698952666153068, 1953625092951735624880095340, 4097048674219917263543300891082860,
  18197417014417825679032113135109615922532319340, 2205081774112056129615822956, 8592134389144981431795356217482424615020, 9868193102839204497738087034429133291628, 18019011818491354528211903129199154883593240684, 8592134389145116831302685645999221768300, 2030996299290264484345544812, 2127710466316544815910617196,
  4624391343257775265567168413040748, 10208475753713954783595749723434007920748, 8592134226885840002153885810300641345645, 9357769349634048936496349191551762563181, 8251852103353913496548455362051486777453, 8592134510839729195791405807725562560621, 4097048945019282410502550552838253, 9357769593022828780726054541652706459757,
  19624664366840972426508168716704562297547260013, 4097048770934065843088354797682797, 4462132259856683817095842947399789, 9698051554295691228062373795048831582317, 9698051554295807284811929599729729536109, 37788603997026955505597304199436156143104504889344109, 9698052203332547088280783923030643441773, 4097048654877104149748816472440941,
  18019011988606089726557973110323743096276254829, 18554229873370865246967465792569868769776631917, 20338288213194398579681078496782091057841045613, 18019011308040625717857943443313822550041034861, 20695100902005443390879110400441739382884401261, 9953263167226866789922178393952768491629, 4381002428013964443825449931374701, 19624665217546849164035119951896436085771731053,
  4097048945019236293681948697559149, 17840605516593523628511081761935715317999206509, 2030996299290282076489646189, 18019011393111501402194523881706274530797813869, 20338289574323257791533679182348337774579417197, 4462132259856674593763388511223917, 20338288213194074061204791470084614350864121965, 18019011988606089726751401158451766218861838445,
  4137613590141378407352266620141677, 40407615287935856711995055514722867766911638504996973, 18019011818491354528211903129199185669876875373, 18019012073676559762257595869029782409030140013, 8592134389145116831330355792896069730413, 18019010627475851311509979941506524149190754413, 1953625212855655666833948781, 9187627841654909989533039151340714983533,
  20695100902005443390627653700837586311237861485, 20873506863594215718545034082246634299386232941, 37788605602680865011699042553106957610327976110456941, 19624664707123095958241246071095771294714560621, 20338288213194398579835821001695661904862642285, 8592134429710168152391065517118449516653, 20338289574323257791359593818206931406737637485, 18019010882688153844515351781858752417585168493,
  18019011052828931657063309863731254123577737325, 4097048945019236293659958473392237, 18019011818464460053270889182251732354423849069, 9698051554295401085736539093123129671789, 2205081626538143122324455533, 4624391420628917040412605024305261, 18019010882688153844786151230013135298051965037, 4624391536685906403881448053407853,
  18732634473828993511296609178906863444789559405, 8592134470274755246066167564727375364205, 1953625120621922104155045997, 20338288213193871237031383691701670972370190445, 4097048945019411537755046993199213, 4381002350642702768015458554609773, 37788606673116889779879184081689850580695708789112941, 18019010627476419218766111253252459500666880109,
  9698051554295517142790469064536793022573, 4097048828962357610690742073688173, 9698051554295575171239030983286786621549, 8592133740108125571484712360335946809453, 4097048983705028541989571086254189, 4462132259856637700226862597275757, 4624391343257756818765920073678957, 4746085800879583830983262120968301,
  9357769593022770752286713052646476873837, 8592134510839729195791405834113858404461, 1953625037611556180284407917, 19267852103382480631308856371358531408092987501, 9187627841654909989533039107360266649709, 9698051554295691228062373812641034403949, 4097048983705037765401190359629933, 8592134145756085530603957571823595421805,
  20338288213194398579835821103149873589808791661, 8592134145756201587648661277285799690349, 1953625194408924787280707693, 4097048828962422174211437194379373, 8592134226886014087444240205189310578797, 21408725343852727702153308295294035166859624557, 9187627841654832618234466910908824158317, 20338289574323257791514336295447509820789227629,
  8592134024061589223187611178893435732077, 18019011478182336521344383622935228384727269485, 8592134389145329602412958517397343436909, 18019011478182012002423211793162458143869894765, 20695100902005605650001197145787946573980762221, 9698052203332547088400687781500017442925, 9953263167226866789765381086918452707437, 8592134389145348945226072369056324780141,
  9698051554295517142790466183816349220973, 4624391652742646736331684303601773, 1972967906065648856500011117, 4097048751591114378726511768240237, 4097048828962394504178889513762925, 4462132143799740570539960779669613, 9357769593022964180482415037154844475501, 4462132259856693040520656389668973,
  9868193102839204497765757203316243169389, 18019011308041193625481588296453449216790888557, 19624665217546889728854327329024242682968408173, 18019011308041031366204758907846015326818926701, 8592134226898664287220687746446099742829, 8592134389145348945170732136835208708205, 4097048828962366834053982868996205, 9272699244694295008083936735035995979885,
  19624664366840972426179340847652566958260355181, 19624665217546889728854327255237292776409268333, 2205081626538169510637076589, 4381002428013964443851838252384365, 8592133821237493186624790096828856008813, 18019011308041031366204759083090084027068055661, 18019011818491354528211903230656273677283229805, 18019012073676559762412338281706734574895104109,
  4624391652742646736274509669597294, 1953625157515401455472738414, 20516694515064807662042647571814181316348346478, 4624391343257756818814298568523886, 19624665217546889728854327255237292776367325294, 4462132259856591583423852911263854, 4097048945019411537759445031321710, 18019010882687626502194484606019809177109528686,
  18019012073676559762412338392387203415148593262, 4097048945019300857303798867034222, 44897351172311435606026214972177766795534400539852910, 4624391265886522810156134407602286, 18019011988606049161661394499190233822216061038, 41155905910308894888646310111975279119663297099464814, 42652481802875953452807358790078166935466230880927854, 42652481802876123593747430402094517919184780135497838,
  1953625074505022337462567022, 10208475753713954783604973069082550075502, 20338288213194601404047914544653986443451957358, 8592134226885956059124802614234806485102, 9357769593022944837678524575124882980974, 2263110065879680507082440814, 1953625083728367986046664814, 4381002428013872210056702888771694,
  8592134470274600503561254020268649611374, 4746085723508294482202827985780846, 1953625120621851735431839854, 1972967906065574089709322350, 18019011478182458215821348392188417940792541294, 20338289574323257791185508555522657026729574510, 18019011988606089726557973174887334160149512302, 4097048674219843476610986505404526,
  21408725343852727702269365081743354383455748206, 4624391343257710701932124091449454, 18197417014417825679032113088992821708943523950, 8592134145756066187790843746552905728110, 20338288213193952366766512271718821124871553134, 8592134389145116831431812880903455113326, 9698051716554968057303407351115947180142, 9953263167226866789940625168812832981102,
  20338289574323257791514336221660568710323109998, 18019011818464176099497752358848289536219283566, 4097048654877104149792796966912110, 1953625074504987153124032622, 9698051554295401085856442872427670667374, 1953625175962114742898655342, 18019011308040625718012686040458193462760570990, 9442840306460306617905601468680093302894,
  9187627841654832618382040872294606176366, 1953625203632266037835071598, 18197417014417825679186855640020363223685398638, 4624391420635050582777531025326191, 18197417014417825679070798641433478363296563311, 9698051554295478457062781396889049759855, 4624391652742628289583212520276079, 20338288213194479709648320935622360009455698031,
  18019011308040666282677150848111784840180793455, 9698051716554890685931048173971580125295, 9698051554295691228117714071250427445359, 19624665217546889728834984442123383942785532015, 9698051554295652542491486328350048256111, 4462131989063332308713418654744687, 8592134389144981431740016042435862855791, 20338288213194601404047914526207242369738211439,
  20338288213194074061417562423560169918564401263, 18019011818464460053000089789431815856105455727, 2205081774112056129580171375, 9868193102839204497728863688780521930863, 20338288213194358015113327773144422884170530927, 20338288213193952366708483832377257351815626863, 4624391420629009274097789202071663, 1953625212855602890288398447,
  4746085723508294482189633846247535, 19624665217547011423157206734136135822321123439, 18197417014417825679070798604539972623712387183, 9698051554295517142808912888307633881199, 8592133942931950808617822918475287363695, 8592134389145329602422181849851775418479, 21408725343852727702327393687105509266760401007, 9698051554295575171239030996480936640623,
  21408725343852727702269371270625955928636129391, 18019012073676559762412338373940406564908171375, 1953625120621847337387425903, 4097049003047813985689935145861231, 9698051554295691234131352573309072965743, 9357769593022770752305159783526061572207, 19624665727970886323234617289948053553769611375, 20338288213194114626101370007434045642776772719,
  2205081626538169510626590831, 8592134510839729195791405864900198662255, 10208475753713954783466622413762965012591, 4097048732248402721896889451544687, 4097048983704927084883971563061359, 20338288213194155191017291348673894984137572463, 8592134145756259615995768997545005547631, 4097048867647974614925266185617519,
  9187628166173308905565535651637875441775, 8592133780672828721798689765775718219887, 20695100902005605650001196998213993984310640751, 1953625203632266037828780143, 1953625092951814789711003759, 20338288213194074061340191060424294442368761967, 4097048964362169311330504410136687, 18019011818464946831198090777227736657784995951,
  4097048770934065843053170465439855, 9357769025115263164312256447972751966319, 4462132259856683817135425407942767, 2089024784748653257284386927, 20338288213193871237031383682478303333595480175, 8592133942931950808617823006436234362991, 9357769593022770752360499980562830721135, 1953625046834976595682263151,
  18019011478208987607273439647377856154679902319, 1953625139068652983769104495, 18019011308040625718012686040458193462718627952, 4097048654877030362772521634234480, 43026745218808873818454208032709347705632857790611568, 18019010627476540913475189687635078759487373424, 4624391343257738372043836579905648, 8592133983496808701390594162653382312048,
  1876253794379591949941211248, 19624664707123461041807539959968960811095818352, 20338288213194439144809770856061144205342277744, 9953263167226866789866838161731639836784, 17305387546758196943073036899367290301937877104, 19624665217547011422944435891341031502726037616, 4097049080418918867139583316852848, 4624391343257673808457170782519408,
  9698051554295729913688601489570701246576, 9783122795063033160873904759975641612400, 18019012328888253823381057142423210971612840048, 18019011308041031366127387673837423133305340016, 8592134429710129466774058340301240533104, 20338288213194114626333483654119598798124613744, 4624391343257701478582077439869040, 4097048828962477514514027037851760,
  9357769349633700766017097551354489995376, 20338288213194114626023998764202090208511918192, 20338288213193871237031383700925038611170066544, 4097048945019411537750648938299504, 20338288553476522111781669558587661645347029104, 9357769593022770752351276687690769105008, 37788607208334944685757035128571517467835883887526000, 19267852443664685280300948031808459899192475760,
  18019010542405786923654259543266493218053685360, 4462132259856674593772184604246128, 19624665217547011423157206734136149016443879536, 20338288213194358015016613799809043287475486832, 2205081626538191500827689072, 8592133942931950808627046391667186729072, 4097048867648029955166283380031600, 8592134389145329602366841635222816030832,
  4097048732248282818108788823818352, 19624664026558362116441690470588868993197539440, 1953625120621895715875979376, 8592134429710168152492519702415108210800, 8592133983496808701575061594594393194608, 8592134145756433701267676683544280694896, 89448737517866874001975132118544501198583023806389862531184, 18019011308040625718012685994344253581336510576,
  4137613590141378407330276395974768, 18019011052829499564648269007632873121095090288, 8592134470274755246047720820653665812592, 9272699244681509408717152385612090703984, 10208475266936375752369342040553472131184, 20338288213194317450313463292140833869874069616, 18019010627476419218785454047919549493752627312, 20338288213194398580067934842069138317634437232,
  18019012328887848175343726752275985113779535984, 4381002505385198452435235597451376, 1953625194408898398993252464, 2205081626538165112557011056, 8592134145756046845152976853110701949040, 2243767289659325791613223024, 9698051716554968057321856962715961000048, 4097048828962486737899258040549488,
  9357769593022616009837142563954729418864, 4097048770933918269162153415016560, 4097049003047813985751507780239472, 4462132259856693040494268095922288, 4097048964362040184143978652762224, 18019012073676559762412338383163848970494541936, 2147053270206932079035285616, 19267852103382480618697342359489252031868174448,
  4097048654883219245378464880001136, 4097048945019383867577363786104944, 8592134389145368288057632890022212403312, 4097048983704982425160173137952880, 9953263167226866789765381069326254080112, 8592134470274968016890513013466462158960, 4624391343257784488926011103117424, 8592134510839535767715607747657266626672,
  8592134226885840002107769020485128421488, 4462132259856693040511860284063856, 9698051554295729913688601515958997090416, 2089024747855182702026162288, 1876253997293829537321189488, 8507063797414727472950378008506003357808, 8507063635155721443148278409973691580528, 9698051716554987400033510748890112983152,
  4624391343257719925251384381800560, 4097049003047813985689935137472624, 19624665217547254812227193151325536927415795824, 9953263167226866789922178336778186915952, 9698051554295691228117714005279750750320, 4664956471950125321182308342956144, 4097048732248282818095594698965104, 1895596690503778746499072112,
  9698051554295478457108898270267484143728, 1953625092951819187744931952, 8592133942931950808571706141853895098480, 18019011988606089726557973073430215366467911792, 8592134024061937399901862324800629768304, 4097048983711042180557600412663920, 4097048983704973201774942156226672, 9698051554295517142772019400160221069424,
  9357769593022964180482414984378286342256, 4097048945019420761083103403835504, 8592134389145116831302685637203116163184, 20338288213193952366708483832377283740113567856, 4462132066428488115164111179874416, 18019011478182336521092927144689097088843120752, 8592133821237493186661683562986021585008, 9698051554295517142753572673678697562224,
  19267852443664969234074084762975292832341819504, 42652481802876889256251431189102390068785727190073456, 2340481318334981589912518768, 18019012073676559762412338392387190221038420080, 19624665217546889728854327329024264673188380784, 42652481802875698267967207904480406608262259055526000, 8592134389145348945235295745491226067056, 9698051554295478456988994455778610905200,
  4746085723508294482194031905341552, 4462132259856591583423852940623984, 1953625037611586966622568560, 9357769349633700765961757332327530233968, 4462132259856628476916398406238320, 8592134389145252231151279839879633043568, 9357769349634048936662369949787829043312, 9698051716554910028900959337062980386928,
  8592134024061918050964429440670083580016, 18019012073676559762412338392387115454254022768, 44897351172311435605904520166391409603676349229170800, 18019011818464460053058124325422164048785440880, 18019012328888010434504505146711743330028355696, 18019010627476662607758732348611885305989955696, 9272699001292632856583087456697211420784, 37788603997027380858515377903114566785526048671924336,
  37788607029929578564597427517473723416055859701088368, 20338288553476562676929710689278827493259739248, 18197417014417825679186855593903454660893606000, 4097048654877150266595806642438256, 4462132259856683817095842983051376, 4624391343257793712262863604678768, 37788605781142973190323723467805873040886278364594288, 42652481802875698267967207904480259034292077199360112,
  8592133942932105550993606439668298023024, 8507063635155721443148278471546355318896, 20516750916866719159342865061171648423866138736, 1953625092951792799478448240, 20338288213194398579758449804577663944233058416, 18019012073676154114336322163874726187813044336, 20338288213194155190843206012202692687781953648, 4097048945019365420877270560538736,
  37788606673172781131548649206606013199481632316194928, 42652481802875953479742398608328013362572277556707440, 18019011903535457431504150024149604869699797104, 18019010457335357452696473010690047427037102192, 18019010542405786923654259497149637431861969008, 9953263167226866789866838192518001066096, 18019011903535295172285349084107062809156649072, 4015919132519403821129558380249200,
  9357769593022944837540173915407257698416, 4624391343257766042146753046642800, 1953625157515383863328637040, 4624391265886513586823680004980848, 8592134429709936038606026493893724340336, 8677204615792191352456500817836227166320, 8592134389145329602320724805824901283952, 20338288213193952366766512271718812328791113840,
  4097048828962578971641616854417520, 18019010627476175829947581323529593046964371568, 4624391265886513586775301493358705, 18019011308041031366127387812187946511564275825, 19624665217546889728854327421257923469097566321, 37788604175433937941510959616014539219971021180239985, 9698051554295729913734718318968691490929, 20695100902005605649923825884109242668003885169,
  4097048867648048401883968802127986, 20338288213194398579932535168718977953070841970, 10208475753713954783485069171030778445938, 19624664707123136523234538793915289096792572018, 9698052203332547088243890421689084805234, 4462132143799805134091442175606898, 20338288553476765500870998539859904598709895282, 18019010882688153844786151165449522243967123570,
  20338288213194358015210041801820135857043013746, 4097048674219917263600475453784178, 4097048732248282818139575141007474, 20338288213194358015210041875607142938206797938, 9698051554295478456988994464574674567282, 2127710410976330186926063730, 20338288213194155191017291348673987343078654066, 18197417014417825679070798604542906120720613490,
  9698051716554755286202360719280971972722, 42652481802876974299908121605468501719056305056907378, 42652481802876463876357740236458932884813290995187826, 20338288553476562676929704528066298078149214322, 20338288213194398579835820992472289868007866482, 42652481802876463876033221644114898377106075093565554, 42652481802877059370621546355734735373498120602124402, 20338288213194398580067934888185932531210649714,
  9698051554295575171239030992082871255154, 20338288213194074061166105889973740430858125426, 20338288213193871237186126058264639276329205874, 20338288213194398580067934860515820818692833394, 8592134389145116831302685610814816125042, 18019012328887848175343726660045145465696551026, 42652481802876463876722823628667522183138592587513970, 9357769349633700766017097498577940250738,
  4097048732248467285523137640267890, 41155904126249279005871940235459390581011220600455282, 9357769593022770752240599099570938445938, 18019010882687626502078427736563044339526140018, 42652481802876123594112513891017126669820231430439026, 89448737517866874057526201421088765022497832726915960537202, 9698051554295729913596367742813882810482, 9698051554295749256501715297249225867378,
  8677204615792191352382713832745262383218, 9698051554295768599222595419743566430322, 4137613512770033718264844573999218, 18019012073676559762586423535167606131701842034, 8592133821250472214187279245510807912562, 4097048964362113971098283252121714, 20338288213194398579932535168719021933544341618, 9698051716554852000406277567457072775282,
  4624391343257784488908418908684402, 4056484125811923729444425162555506, 9868193265098752126215140288453364678770, 20338288213194074061224134181741338420079231090, 20338288213193708978006011011924612125047128178, 9698051554295691228108490672825299894386, 4259308163820194782994471239811186, 9698051554295517142716679198725397020786,
  20338288213194398580009906421174371394865070194, 8592134429709936038762823827316314996850, 8592134145756201587657884636128506544242, 4462132143799823580870700265635954, 18019012158747192057388790299895862389890875506, 44897351172311435606107344378478772908546014532599922, 37788606673115953976921889571181669982666686847778930, 9868192656626270588626122971726653423730,
  4624391343257775265562770332975218, 43400769927566635311761892576999513811771380320960626, 42652482516500225158461996545078533144199571628359794, 9698051716554890685931048173971586416754, 37788605602681630646781225904148582642732454612303986, 20338288213193668413167460895469956552028323954, 20338288213193708977754554469114911755551637618, 19624665217546889728738270561024601037071188082,
  20338288553476724936148505449665086736612458610, 18019010967758299361990143779972964770656551026, 8592134389145368287946952500346737393778, 18019011988605765208197742906971928085508653170, 38162749486620286888288036960214486745283907091955826, 18019011903535457431504149904245715614010703986, 4746085723508294482123663148580978, 2205081774112056129590657138,
  4097048674219917263560893051961458, 9698051554295575171183690777453937033330, 4624391343257618468216153577619570, 20338288213194398580029249234288205461668757618, 8592134145756066187864630718449684840562, 4097049003047813985769099968381042, 4381002428013964443851838227218546, 2089024710961685758514036850,
  18019011818491354528211903129199194465986674802, 10208475753713954783475845794595906519154, 8592133780672925435818142093517600587890, 4097048945019365420868474461225074, 1953625037611556180296990834, 4462132143799666783532879615885426, 4746085723508294482189633858830450, 4624391343257673808470364951412850,
  8677204615792191352382713867929655443570, 2205081718771889879172251762, 4097048828962532854755044288888946, 1953625074505075114041671794, 8592134145756259615995769067913743433842, 9953263167226866789848391448444285223026, 8592134226885840002264566353907765215346, 8592134186321252908543347463706751533170,
  2127710337189265931199578226, 2224424476545412560014278770, 1953625083728367986071830642, 4097048828962449844340741910823026, 10208475753713954783595749648667217231986, 4624391343257719925286568772763762, 20873505757676158142199533496237897649624186994, 2205081626538165112590565490,
  18019012073676559762412338392387194619097514098, 4097048848305226064752631993073778, 4624391343257701478511708695691379, 9698051554295729913688601427998050091123, 1953625175962083956531134579, 8592133983496808701519721322790837551219, 4259308221848440433648713294938227, 8592134429710129466774058291922728910963,
  4624391420629018497483020185895027, 4097048674219843476606588429533299, 4097049022390553312596085583118451, 2127710466316518427589607539, 4624391343257784488904020853784691, 4259307951049093733490711905435763, 19624665217546889728854327273684010461797810291, 20338288213193952366882569131955055063625367667,
  18019011393111907050019083410611673985584201843, 8592134226885840002116992388123919908979, 9698051554295691228117714071250425348211, 20873506863593850635230196828411126070334455923, 4462132259856628476916398376878195, 4624391343257775265571566417608819, 8592133942931950808654716490185565012083, 4705521155757524727709654386212979,
  20338288213194155191017291348673974148939120755, 9187628003914244847213414060074609934451, 18019011308040585153096764625431279865597788275, 91018011455135867621640560536317258188669014882399180292211, 41530049259030602140791383433502912845012108018974835, 8592134389145329602385288361704335343731, 8251851819412925959267086081206121398387, 8592133780672925435855035564072808480883,
  9698051554295420428669556741678800306291, 1953625175962141131139973235, 9357769349634068279493930514734169194611, 20338288213194398579971220767276609140938506355, 8592133780672925435818144996228276945011, 18019011308040625717857943387976488641571586163, 9698051554295497799820557905843466535027, 9698051554295749256501715266462900289651,
  89448737517867230869449377911058990908308627200345336971379, 18197417014417825679032113005985354097694343283, 18019011818464460053386945977924388423502659699, 20338289574323257791398279398317739356054356083, 9698052203332740516430371914881058209907, 38162749486620371958514683512479520466239277238321267, 8592134226885840002089322250023131414643, 9698051554295575171063786967363095625843,
  8592133780672925435855035581664998719603, 19267852103382318359188399324199194085484920947, 42652484657371168723989873235927831207909150525751411, 18019011308040625718012686040458215452959572083, 18019010542405786923654259644723559235185541235, 20338288213194317450042664000783758023752417395, 37788603997027380858515377941794142484075900571746419, 4462132143799676006922508635734131,
  9868193102839281868879861945836442222707, 21408725343852727702095279911295703082650828915, 8592134389145348945216848997019449032819, 4421567556706249938800615253606515, 8592133780672828721946263757947785969779, 8592134186320866052447094328968349745267, 4624391420629046170519433641984115, 8592133942931950808617823006436200808563,
  18019011308041193625713702053819510794859053171, 19267852103382480631308856371358487427627876467, 8592134145756085536792840151378545344627, 9698051554295478463187100398574309998707, 9698051554295575171100680424724197539955, 1953625120621873725651812467, 4381002350642647424854138457948275, 8592133780672925435855035577266960597107,
  19446259766382195124800908954969779006934614131, 4097048828962486737864073676849267, 18019011818491354528211903073858927060485931123, 18019011818464906266359540734560009001071804531, 4462132259856582360034223887220851, 2166396092544212949476049011, 18019012073676559762412338327823590361088917619, 4624391343257784488939205242650739,
  2205081626538121132104482931, 4381002350642601307976362010607731, 1953625120621856133478350963, 4421567556706166925509990465667187, 21408725343852727702191993875404860708362387571, 4705520904300981917938916175904883, 4381002505385069325200331372494963, 18019010627476662607913468729203556155100495987,
  8592134145756066187975311152105629155443, 4097048945019236293659958494363763, 9187628166173308905491748701731310010483, 20338288213194074061398219545882700807485259891, 1953625046834928217151766643, 9698052203332547088271560559789911048307, 18019011988606089726557973128770495966108188787, 4097048945019356197500835652960371,
  9698051554295517142633668859189818032243, 4624391420629027720894639488630899, 1953625092951810391658201203, 8592134429709936038781270588982231564403, 21408725343852727702095279772942255003524923507, 8592134389145348945087721801697642676339, 8592134145756143559089415947402407313523, 20338288213194479709396864429706130195220529267,
  8592134308015323674329443889014988865651, 4097048654877187160136730613383283, 20338288213194317450197406542585051179229642867, 20338288553476522111781669558587674839515922547, 21408725343852727702095279772942167042596798579, 9187627841654832618382040806323898024051, 19267852103382115534976312016234556641305952371, 8592134389157941116434051094043634434163,
  4381002350642684318351081984753779, 4097048828962357610602781174923379, 9357769593022770752360499980562826526835, 9272699244681548094361823859924352893043, 20516695535911786730400416015021932198347407475, 20338288213194074061514276443012431689791045747, 4705520942986654262493622329933939, 21408725343852727702095279782165627040390185075,
  9698052203332547088354570938907940094067, 18019011988606049161816137059438288643599368307, 8592134186321020794887438446155553308787, 20695099796088440499736285506601536666579501171, 4381002505385207675736903741603955, 20338288553476522111781669558587591276644794483, 9783149202760085658575402654443109351539, 1953625175962088354619588723,
  8592134632534032075168847558366138990707, 42652481802876889256251431189102417738871051441406067, 9698052203332547088409911118352512712819, 8592134470274600503450573520642045378675, 8592133740108183599804150083231850430579, 20338288213193952366882569214965412191453315187, 8592133780672673979293779132823780720755, 18019011988605318994954348692949875244893470835,
  20338288213194155190843206012202705881927778419, 18019011903535051783563533515104121802884907123, 9868193386792938948861473009273069895795, 4097048770934102736616084677329011, 9868192656626270588626122971726686978163, 8592133740107854772045778490762136125555, 8592134145756317644370546930671794782323, 37788605067463490670960694573595672594967499787731059,
  8592134429710071438297823332361299820659, 8592134632533877332793064129532123938931, 18019011393138395877038823901438014387572965491, 1914939392937091196409348212, 9698051554295517142716679137152737476724, 8592134145756201587657884578953893511284, 9698051554295575171156020670139448950900, 4705521155757561621153821340205172,
  19624664026558767764827191607462665386859692148, 20338288213194155191017291348673930168474009716, 9698052203332740516356582035875514286196, 9698051554295710570820147410088637759604, 18019011308040625718012685929777751010693873780, 2224424476545474132623491188, 20338288213194155190920577338445014045858726004, 4624391343257627691605782601662580,
  1972967906065640060377628788, 8592134226885840002264566340713596321908, 1953625185185530760176599156, 4259308125134374864539951969599604, 18019010882687626502252513128371655311141896308, 1953625157515423445705293940, 9953263167226866789903731680665384517748, 2205081626538187102781177972,
  9357769349633971565354577248825823461492, 19267852443664847539519748907287410895902212212, 18019011308041031366204758907845997734599327860, 4097048945019254740408430229454964, 4624391652742646736305296003563636, 2205081663431631269743558772, 9357769593022770752351276665700544938100, 20338288213194155190920577264658042149075419252,
  1953625139068666177864597620, 18019011308040625718012686031234861008290840692, 8592134226885840002264569221434069483636, 1953625194408924787272319092, 4097048848311350383719132830892148, 18019011052829499564532218207149103112557428852, 37788605067463320529006489869888749082725472016531572, 4867780181130324408552204277907572,
  1876253840496399357673734260, 4097048674226032359212531675299956, 4097048674219917263587281331028084, 18019011818464460053212860669120373138743361652, 4624391420628981604034455202168948, 2263110195006875828918157428, 4097048867647974614982440771387508, 1953625175962163121385111668,
  9698051554295381743107892726181717344372, 19624664026558524375679834085391757458993578100, 43400772246842519617947226365770604272598968904450164, 4097048983704853297956055230185588, 8592134510839729195791405838511917498484, 9953263167226866789866838161731669196916, 18019011393112150439185783911817059867132166260, 4097048751591114378713317628706932,
  4097048945019254740426022436470900, 8592133821237493186670906957013108916340, 18019011308041031366204759046196595879627980916, 9868193102839281868981319038241865728116, 1953625185185526362159448180, 4097049003047841655880812498780276, 2108367560968999176647999604, 9698051554295497799820555038317162266740,
  18019010882687626502117113464244937352215003252, 9698051554295710570912381165641586966644, 4097048867648048401976327808221300, 19624665217546889728854327273683953287228817524, 4015919132519348480892939198791796, 18019012073676559762412338272483278975141937268, 4624391420628917040355430446923892, 2127710410976237827984982132,
  20338288213193911801889276575153247651379544180, 9187628166173231534322303661019269955700, 8592134145756143565232181653578950115444, 9698051554295652542417699360851334529140, 9698051959943902649977874886320898179188, 4381002505385216899122134729621620, 4097048732248282818095594711548020, 19267852103382318359420512980105190178769862772,
  20338288213194398579951877871152373965923549300, 18019011052829053351520931773750877504229343348, 18019010967758826704620496039417304673784168564, 9698051554295575171192914158286903705716, 20338288213194317450429520299951007204221386868, 9187627841654832618400487585581983858804, 18019011478182336520996212968439475506755141748, 1914939512840984850161729652,
  19267852103381872146177119015117089441943912564, 20873505757676158142141505075343165911220617332, 1953625120621882521770000500, 4097048906333674629591684853268596, 8592134470274813274533176280327661813876, 4381002428013899880221191989887092, 8592134226885840002098545644050252300404, 4624391652742646736331684316184692,
  9698051554295826627754170677496905728116, 2263110028986205553836425332, 4462131989057272553320389485265012, 4462132259856582360034223920775284, 8592134510839729195791405847308031492212, 2127710337189336299952144500, 18019012073676559762605766385174963530282041461, 4097048848305235288124668820586613,
  19624665217547295376678886996280249078836625525, 8592134186321020794905885185831201669237, 9698051554295517142661338935717961662581, 2127710466316505233477337205, 4097049003047813985725119513755765, 18019011818464460053000089863218739374408597621, 9783122673368324082365732226526932369525, 9272699244681451380259361183850767057013,
  4462132143799639113363992499716213, 20695100902005443390530939690605776274045534325, 1953625074504987153119838325, 1953625139068626595475357813, 2089024747855169507907600501, 1953625175962167519452594293, 1953625120621882521767903349, 4097048770934047396370669407043701,
  8592134186321194880104005864749313032310, 4462132143799657560112464220127350, 17840605516594091535863927111577788988042248310, 1953625203632222057328017526, 20695100902005443390705025036300350607220277366, 8592134389145000774543906456087287562358, 20873505757676158142199533496237897649582243958, 8592134145756066187790843711368504279158,
  4097048964362113971093885197222006, 4462132259856619253504779103502454, 1953625212855616084415348854, 8592134389145116831441036222153954951286, 8592134145756259615995769037127388495990, 4624391652742646736314092088197238, 4624391343257673808465966875541622, 4867780567986466781414653243162742,
  4381002350642693541767099273183350, 1953625194408902797031374966, 9698052203332547088391464347890490540150, 8592134470274968016890512960689895637110, 40407614574312946162094091226138953986164785690968182, 37788605602681630646781225904148471962268012354994294, 8507063797414727473051835136095763300470, 8592133780672944778732715922700474777718,
  18732634473828993511296609188130217889458290806, 42652481802876889256251431189102482305404408367677558, 4624391343257655361704300988334198, 21408725343852727702172651080737792705488224374, 18019011903535538561335992752746264891729379446, 8592134389145348945087721788503482171510, 4462132143799795913639708212592758, 4624391420628972380662418339004534,
  4746085994307797979698650037616758, 4624391343257766042186335431688310, 2263110204230243467718033526, 4462132259856693040511860275675254, 41155903412626198315030917391258079108761386380951670, 18019011988606049162048250890594123674088898678, 4705521155757524727718450487623798, 2205081626538187102789566582,
  4015919364633087400157667013951606, 4097048674219963380394689046773878, 18019011818464460053270889246812389921253228662, 8592133942932202265031505445513179693174, 4502709806634886933529182573953142, 18019011988606089726557973128770465179770028150, 9698052203332547088400687737519539748982, 4462132143799639113407972945952886,
  8592133942931950808562482730234615431286, 18019011818464378923516417586203669409747173494, 4462132259856619253517973259812982, 8592134389157941116434051129227991842934, 20695100902005605650001196998214011576477810806, 18019011903535295172536805811384199517680173174, 2224424587225947370990600310, 4097048732248282818139575157784694,
  4624391652742646736327286244507766, 4462132259856591583419454881529974, 21408725343852727702327393659435463524929765494, 4381002428013964443847440180707446, 2089024710961676962421014646, 8592134429710129466774058349097350332534, 18019011308041153060546324012972539700460912758, 8592134226885840002246119605435996569718,
  4097048654877030362816502116122742, 18019011818464135534736573531742431989509128310, 19624665217546889728854327255237218009605996662, 4624391343257784488882030650589302, 1953625120621882521757417590, 4462132143799805134091442204967030, 8592134389145348945235295701510760956022, 18019011308041031366204758907845988938527277174,
  4462131989057152649479512305696886, 20338288213193871237186126205835684757282750582, 4097048848305345968553926712098934, 4097048654877030362798909942661238, 4867780258501595310645739322867830, 2205081626538169510624493686, 9698051716554910028808725616694432628854, 4097048732248282818165963449434230,
  8592134145756259615958875597358510375030, 2127710466316496437357052023, 4462132259856637703155961565282424, 2243767280435878987959369849, 4097048945019236296558271124209786, 8847346245465459093626805032153782419578, 1953625194408902797039763578, 18019011052829053351520931773750903892502118522]

/-- A modulus under which all codes of the dictionary are distinct (used only in proofs). -/
def frenchModulus : Nat := 208188

end KC.Bip39.DictData
