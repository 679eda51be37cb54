/-
Generated from bip39/src/dicts/bip39_spanish.txt.
-/
namespace KC.Bip39.DictData

set_option maxRecDepth 100000 in
/-- bip39/src/dicts/bip39_spanish.txt: the 2048 words in order, each as the number whose base 2^21 digits, least
significant first, are the code points of the word. -/
def spanishCodes : List Nat := [
  4502696846950063771207487604129889, 9357769187374656050533429990894809907297, 1876253849719784588653363297, 9442840387577275489922721833125951832161, 9442839738539839345264779858140379218017, 2147053270206993651671760993, 4502697175778043503768422852853857, 4502697291834765389461391232991329,
  2205081663431648861923311713, 4502697021035418689285797657444449, 2147053316323880224224706657, 4624391265886356789450674924421217, 17305387206476316799713604404145865155858661473, 4502697156435110486045100389433441, 9357796284673925214736003815936945553505, 4097048983704927084897165671137377,
  3934789455419170911778829886292065, 4502697175778006610236294970736737, 9698051392036453084484461421651038306401, 4502696866292950672022247284146273, 9698051392036414398719883203750951649377, 14874624216099456873240985697, 4624391343257655361708699030650977, 2147053316323853835947737185,
  4502697214463586721110214985121889, 1023794806264483020897, 4948909974287436000942517867511905, 4624391265886532033602938048872545, 4624391420628880146955243926585441, 9442839738540168173069268319590470910049, 4624391265886513586863262385832033, 4502697175777905153161481756344417,
  9698051716555006742846624635733449637985, 9698051392036453084484461465631505514593, 4502697059721164820764022085255265, 3934789590818761251595260797124705, 4502697175777988163562590007459937, 4502696885635846799151335533969505, 9698051392036453084364557585171932512353, 19624721193996491611934039874599823629713670241,
  4624391265886467469950301560111201, 9698051392036317684811111344849373102177, 2089024784748596084047085665, 4624391265886522810182522690863201, 8251878592180759151647470250343767474273, 4502697175778052727140459718115425, 4624391265886522810208910969929825, 9698051392036201627812524543551909920865,
  2147053224090146661547901025, 894667602146571059297, 2147053177973299671413555297, 8251851778835263124203733361152575406177, 1876253849719854957408026721, 2147053205643389393700913249, 4502697137092417276100289274839137, 931561077099854823521,
  4624391265886449023250208321962081, 10378616288137568154887665895516751790177, 2147053270206949671223427169, 4097048983705019318687902977753185, 19624721193995923704639222945852424523475845217, 8592134389144981431721569214799288467553, 3934789571476104934997859619569761, 894667518583697834081,
  4421567556706102361940918234251361, 8592133821237705957495255229298041159777, 1876253803602920006353944673, 4097048945019282410484958389862497, 4624391265886430576444561967546465, 3934789706875796731853919372705889, 1876253941953504957222092897, 9698051554295575171128350540834768158817,
  894667540573930389601, 19624721193996491611837325919711108941914046561, 4502696866292876885072339338788961, 9442840387577198118670266496858791608417, 4502696963007136145055447265575009, 894667566962209456225, 3934789513447545689711956679721057, 20338287872911301504995254031885570197717778529,
  2205081589644681363199098977, 3934789822932555511087811730079841, 4502697214463586721110215003996257, 1023794806264501895265, 3934789668190198174367867044102241, 4502697059721118703930226107220065, 2205081589644707751478165601, 4097048828962357610602781160243297,
  4097048983704973201739757779943521, 8251851778835379181036299478979410133089, 4502696924321473023863981885882465, 4624391265886513586775301476581473, 4624391265886356789503452887646305, 9442840387577101404577027228007823048801, 2147053270206949671229718625, 2147053205643363005432332385,
  8507063107813168462390320429342620909665, 1051464900384835764321, 4502697137092260478780060800647265, 4502696963007043911365865045491809, 2147053214866708654010138721, 9442840144188031418316635028382581522529, 1876253868166519866295058529, 2205081589644610994459115617,
  4462144987427583592681288081866849, 3934789494104806362819000354734177, 9442840063058779859953783318235666448481, 4502697021035483252837279107907681, 4502697040378268696577226953457761, 2224430600864475817896312929, 4624391265886522810208910984609889, 3934789590818798145079010190688353,
  9442840428141881926318704042811662008417, 4502696982349884695333634593259617, 2089024710961681360478011489, 4624391265886449023259004425470049, 9442839941363974067472275396392770338913, 9698051716554697257763019225876697972833, 4502696982349792464493986510274657, 1023797686984970862689,
  4624391265886402906310859225563233, 9442840387576946662219690455285201109089, 9442840387577101404743047889485459095649, 1023794757885998661729, 9698051392036124256596962669043887636577, 2147053177973273283153363041, 4097048983705010095289477856493665, 2147053371664086057103655009,
  20338288213193749542825218223031757243211055201, 9698051392036104913839189093586500059233, 8251852103354010210614024593958145884257, 2147053307100508187399290977, 2147053177973211710506401889, 3934802376418349399661930700865633, 1051464838812195094625, 19803071434347356117488970000669950589192372321,
  4381002621441920338115011238953057, 9442840387577294832883409588996131520609, 9442840468706739819239049112036118102113, 1023794731497723789409, 2205081626538099141886607457, 8251851778835321152532394385715190825057, 2147053334770549531177123937, 1876253803602981580391317601,
  4502696866292950672088217981812833, 2224424439651955198914461793, 17305443693349063416395795530448959034521288801, 4664969083464100296964741068226657, 1876253877389944679716356193, 894667580156361572449, 4462144987427675826454433196146785, 9442840063058509060551742914817635123297,
  2359824223682553617447911521, 3934789455419253922184336215375969, 931561085895966720097, 8251852103354010210650918077707522670689, 426610752749665, 2147053177973211710508499041, 4502697175777988163474629108695137, 9442840347012378911366925622576024649825,
  20338287872911950529491056716672545701157142625, 1023794740293818908769, 4624391536685897180469828809392225, 9442840387577198118670266496858806288481, 2147053251760223189718794337, 9698051716555006742938858338509842808929, 1023794779876237508705, 9442840306447327590380005794951374831713,
  9442840306447385618847017430855882637409, 8251851778835321152532394456083937099873, 2147053307100503789359071329, 4502697175778071173906523685388385, 4624391420628963157303575653122145, 4502697175778006610306663748468833, 2147053233313443931639251041, 4097049003047813985689935154249825,
  1051464838812199288929, 4502697175778006610236295006388321, 1023794740293821005921, 4502696846950137558262947279536225, 3934789706875676828048226602975329, 4502697040378324036835836361179233, 4624391343257600021489672077181025, 2359824223682553617452105825,
  2127716535295358260490535009, 2359824094555283528836186209, 2147053224090085088926105697, 931561028721368367201, 894667562564181819489, 9442840387577198118670266514450996527201, 8592134470274851960011830022259855065185, 2205081718771889879184834657,
  996124606591074828385, 4097048654877150266560622278738017, 2147053307100420226481651809, 444202945085537, 17305387631828788673191595858857782066169249889, 1876253886613272736114409569, 21765537267029745015222317300561708371849248865, 4462144987427675826423646878957665,
  2147053316323827447708516449, 1051464856404395819105, 1876253794379622736317120609, 2147053270207020039999062113, 19624721193995923704639222973522540634069532769, 1051464838812211871841, 1953625194408885204897759329, 9698051392036124262721281741097898344545,
  4097048945019273187183290308624481, 996124694552013439073, 894667518583674765410, 2205081718771810714305691746, 1953625083728367986029887586, 3934802337732677055164399126315106, 1953625120621882521728057442, 2205081589644637382710919266,
  8251852346742828740331606983261315661922, 9357796284673925214680663623298231304290, 1953625046834919421029384290, 31194348233526307321555686569017442, 2147053168749896848220618850, 1876253794379591949941211234, 2147059366855905614629961826, 1876253775932865468417704034,
  2147053168749914440406663266, 4948909974287399107445574351192162, 2147053307100494993228300386, 17305387461688416508932424940529471792187703394, 9357796284673925214837460978711088070754, 3934789668190198174363468974522466, 8251851778835321152458607479789061144674, 17305443693349063416473166690670605719444652130,
  2205081663431657658014236770, 3934789706875824402036000611631202, 2089030909067690126860091490, 2205081589644707751455096930, 14874624216099404096687046754, 3934789397390703900147324800729186, 2147053251760236383828967522, 2205081589644676965137907810,
  1023794801866440704098, 3934789494104870926484830970445922, 2147053214866708653999652962, 1014571368256943161442, 2147053205643384995656499298, 4502696846950183675039567283486818, 4097049003047813985751507788628066, 1876253932730203289111494754,
  426610744361058, 3934789590818835038487992774688866, 1023794727099670986850, 894667522981750636642, 3934789590818835038492390821199970, 894667527379797147746, 3934789455419106348170173881516130, 1876253886613290328285773922,
  894667562564169236578, 4502697137092297372250616037900386, 1876253932730163706699186274, 1876253775932843478214508642, 4056483796984128464381400227774562, 4502697175777960493415693140623458, 1023794779876229120098, 8932443326022481336115425648459185651810,
  1953625046834945809337811042, 4624391265886504363478031416688738, 4097049003047813985769099980963938, 931561085895960428642, 4462144987427620486239804247244898, 8251851454316632094533777542863824879714, 2089024710961703350712664162, 2147053343993908373892366434,
  2147053380887396521311469666, 3934789474761901015264565020065890, 1953625212855585298125422690, 4502697021035483252837279116296290, 4502696846950183675074751668158562, 1876253932730150512565944418, 1876253785156224311168598114, 1876253877389944679716356194,
  4097048654877150266622194921504866, 1953625194408885204880982114, 1876253849719854957431095394, 4502696846950229791987712500170850, 2147053325547252261113036898, 2147053187196592543460491362, 1953625120621856133490933858, 2147053270206949671246495842,
  1116028460662370861154, 8251851454316806179658108303194021953634, 4462144987427675826410452737327202, 2147053214869655345187258466, 4097048945019402314339029706866786, 2147053325547212678700728418, 8251851697705856823179173653842017386594, 1876253868166585837007405154,
  2147053307100494993270243426, 4624391265886366012901876654145634, 3934789378047816999416128037978210, 4462144987427675826498413667549282, 9442840063058605774580418526635412684899, 3934789822932555511008646869811299, 3934789590818835038487992745328739, 1876253923506747689349939299,
  2147053150303104395999445091, 20338288213194479722317863488290119642257555555, 3934789590818798145008641419247715, 1051464856404345487459, 14874624216099421688864702563, 3934789397396828219210582689054819, 9357796284673654415389303653537505345635, 894667553768046854243,
  4462144987427675826428044881428579, 474989226623075, 9698051392036317684654314033416970960995, 4502696963006960900999941141299299, 2147053177973260088982372451, 8507063107812858977288265377099462738019, 1953625120621895715867590755, 1876253877389931485541171299,
  2205081718771854694770802787, 2147053343993956752368336995, 894667566962186387555, 4502696963006951677632302333034595, 9442840063058605774617312063161343410275, 4502697059721081810406894292959331, 2147053288653728929286193251, 9698051554295401085856445827914884186211,
  4381002505385060101837090581381219, 3934789552133171917384488293761123, 9442840306447695103773828405601272594531, 3934789378047890786366034555175011, 2147053325547221474751807587, 1876259983262228679495778403, 9357796284673925220878769640860733669475, 1876253775932852274278170723,
  1060688272421665374307, 2359824094555336305352376419, 19624721193995923704677908627420390848869695587, 4097048983704982425177765307220067, 4624391265886522810213309003858019, 8251851616575870238111687004754802638947, 894667588952418943075, 9357796284673925214671440277649655595107,
  9187628003913993390698277404914650972259, 3934789706875676828074614842196067, 1876253822049725652691583075, 9442866957533778902395415395487790923875, 1953625139068666177856208995, 8251852103353739411331887996234243244131, 2147053307100494993228300387, 1876253941953562131803668579,
  894667593350465454179, 2147053168749918838453174371, 4502697137092297372281402334117987, 1876253905060078382431076451, 4624391536685906403903438277574755, 8592133780673002807199724669087044862051, 1953625175962163121368334435, 4381002350642555191195342544568419,
  1876253932730203289088426083, 1023794832652757893219, 8251851778835321152587734609140199194723, 2205081626538099141859344483, 2147053307100433420585533539, 1876253794379583153856577635, 18019011818464176099343009918504084388098080867, 4502697156435202719805051359985763,
  8251851778835495237878091950720001507427, 9442840387577198118670266514450962972771, 3934789822932592404549570855436387, 4502697137092435722839964931588195, 1876253785156237505280868451, 2147053177973286477269827683, 3934789822932555511079015622377571, 1023794797468394192995,
  4624391265886504363478031395717219, 8251852346742654655188826571748686168163, 8507063270072367920351231404956316598371, 2147053307100503789329711203, 4381002350642545967735344774250595, 9442839697975097509260011145124693147747, 65419289786636433251398744876523213291619, 8251851778835147067260486726104146509923,
  1876253905059999217608556643, 3934789552133291821163792815882339, 2147053168749874858002743395, 4097048983705019318635126415425635, 2147053343993943558243483747, 4097049003047813985751507780239459, 1876253997293781158807470179, 8251852103353739411294994521280978354275,
  4624391265886485916747151831990371, 9357796284673925214763673932047522463843, 2147053205643345413237899363, 2147053251760205597511778403, 1014571368256943161443, 4502697175778043503724442402422883, 1876253923506765281552760931, 9442840306447637075279146640393449242723,
  894667566962203164771, 2147053168749896848237396067, 931561059507668779107, 1876253941953544539634401379, 9783149243324904866017094140065013039203, 2147053168749914440423440483, 8251851778835185752951278073262513324131, 1953625139068670575919497315,
  894667597748528742499, 4056483796984128464412186540769379, 4624391536685841840220015480012899, 1014571350664763408483, 2147053307100420226460680291, 1953625185185451595362467939, 1953625212855567705926795363, 8592134470274851960011829978279371079779,
  1876253877389918291424706659, 17305386696052604159203171484180996871589724259, 1953625175962083956560494691, 19624721193996491611934039874599797241453477987, 9442840144188186160812322328880091234403, 3934789590818835038492390821199971, 1023794731497717497955, 9442839860234451709652045852162316566627,
  1023794735895764009059, 1953625175962101548746539107, 2205081626538112336019849315, 4097048983704890191422212416733283, 4462144987427620486195823782133859, 1023794762284043075683, 894667562564169236579, 3934789474761901015295351339352163,
  9442839941364051438641720344745842049123, 4624391265886402906359237735088227, 3934789590818835038531973239799907, 4624391265886449023219422008967267, 2147053260983608420704714851, 8251851859964978910062870415197614375011, 8592134470274600503413680036892660203619, 2205081626538138724298915939,
  3934789397390703900195703333322851, 9442839738540110144703716661211273625699, 3934789668190152057476896450936931, 1953625046834928217151766627, 4502696982349792461586877768532067, 1876253822049708060534898787, 9698051554295401085865666301639117504611, 9442839981928831960447960741818813907043,
  4624391265886522810204512940195939, 894667580156355280995, 1876253840496460930337472611, 19624721193996491612262867679088298273961672803, 8251852103353662039950305451451124547683, 4502696943664147787192262654427235, 9357796284673925214689887021723394506851, 3934789590818890378790582647521379,
  4624391343257756818814298597884003, 2205081626538165112577982563, 4664956355893145181147074826076259, 1876253941953566529879539811, 9442839779104910015281366263875883761763, 9698051554295729919757580223850481713251, 2205081589644615392514015331, 4624391343257618468176571177893987,
  9442839738552837715695723051120098017379, 1876253877389900699251245155, 1876259964815462615589322851, 4462132066428497338522953901408355, 3934789706875778285127437861781603, 4664956239836321838330914724118627, 2147053260983621614850539619, 17305386696052604159203171484181023259881373795,
  17305388142252501314050205631424495557720146019, 2147053177973299671436623971, 1125251903067963523171, 4502697137092288148830200684085347, 4502697175778043503706850241544291, 4502697137092435722782790360498275, 1023794727099683569763, 4624391420629009274080197047484515,
  8251852022224023625398963921912562974819, 4502697021035483252819686936543331, 4502697175778006610236295008485475, 3934789397390786910508850666799203, 3934789706875805955225956246356067, 1876253960400249030950518883, 4624391265886375236229933043810403, 8251852022224042968184407679451212546147,
  1876253905060047596147441763, 2147053325547212678700728419, 4097048945019236293659958506946659, 9698051716554852000406277567457106329699, 894667571360274841699, 3934789706875676828057022698094691, 1876253941953548937706078307, 4462144987427675826454433202438243,
  8251851778835495237914985438867454165091, 2205081589644672567124951139, 9442840347012398254216933010760940912739, 2147053316323867030125019235, 1876253960400306205555163235, 2224424476545491724851478627, 894667566962186387556, 1876253997293776760746279012,
  501377505689700, 2147053177973286477261439076, 4381002505385207678687992908611684, 2205081626538090345766322276, 4381002505385041657991329531035748, 8251851454316554723106078137896381972580, 2205081663431582891231936612, 1023794735895743037540,
  8251852062789094289245114509758946082916, 9698051716554890685967941600546354364516, 2205081589644637382719307876, 9357796284673809157829650735008032227428, 9442839738539839345264779844946245976164, 4502697175777960493406897026629732, 3934789668190142834104859575189604, 2147053316323849437905420388,
  4381002350642702765117145903792228, 8592134470274929331356519065701410930788, 9442839900799154860085924186972416376932, 8251852103353932839481473080975914172516, 19803071094065029761679198841234168480442351716, 2147053187196662912171114596, 8592134145756201587528757440806679216228, 9442839738540226201591620161326460960868,
  9442840144188186160923002863691071750244, 9442866876404043773843068370241976270948, 8592134145756259615921982087220837744740, 9698051554295613856717684782393576128612, 1876253794379622736275177572, 894670469672900493412, 4502697021035391019081726177575012, 8251851819400004960097821521763694018660,
  18019011988605846337565358047046643120439558244, 1876253886613255143901102180, 4502696963007099251532115468091492, 4502696982349940035486690874228836, 4624391265886522810156134415990884, 4097048983704973201757349957599332, 1876253941953504957215801444, 1125251832699200471140,
  19267852783946606000897673784888480817137844324, 2147053270206958467314352228, 3934789571475985031209759012814948, 4624391420629036944240288051757156, 4502697137092297372259412118339684, 9442840387576985347726014361706455629924, 9698051716554755286276144814855353794660, 2147053168749918838469951588,
  9442866957533778902358521911738435108964, 10378616125878291325692749309585100111972, 894667606544621764708, 4502697059721081810446476728336484, 1953625120621851735431839844, 931561011129169739876, 2205081718771854694800162916, 9442839860234548423763728979969869611108,
  483785349005412, 2205081589644654974926323812, 4502696866292876885111921763680356, 4624391420628963157290381505200228, 2147053316323867030112436324, 505775581560932, 2224424476545487326792384612, 9357796284673925214717557063067174436964,
  1876253822049712458587701348, 1876253831273031718890635364, 894667527379809730660, 2147053251760205597536944228, 4502709845320596171550045929209956, 1953625037611547384216551524, 1023797678188892520548, 1953625203632266037835071588,
  2205081589644672567124951140, 3934789822932555511079015655932004, 1023794797468427747428, 4502697059721008023382222352416869, 2147053224090146661537415269, 2205081589644628586622091365, 488183370350693, 9698051959943612501583061436921272074341,
  922337630296198873189, 19624721193996491611934039874599823629709475941, 19803070668711340943450903088176118224767680613, 4624391536685906403859457818755173, 4624391265886366012910672711516261, 4502697175777905153143889574494309, 4948909819544792739641052178153573, 444202919919717,
  9442840063058683145943554340539009597541, 18019011988605846337565357982483056454648463461, 4624391420628907817000985765609573, 19803071604488296188965586761313865900291522661, 4624391265886541256909004224856165, 4097048964362178534684949064188005, 4097048983704927084927953401806949, 4624391420629064614343204482842725,
  4502696963006997794501282723004517, 4624391420628880146955243945459813, 4502696866293061352482290110824549, 4624391420629027720855057065836645, 19624721193996491611934039874599850018007416933, 4097048983704853297969249365524581, 9442866957533778902358521898544303964261, 4502696885635791456029597864296549,
  8251852062788920204046993883617382367333, 2147053270206932079045771365, 9442839860234625794942397295961745391717, 8592133902367518457484525035946191618149, 3934802337732677055142408921022565, 9442839860234451709735053262598938034277, 2147053307100437818650919013, 4502696866292876885059145203449957,
  9442840103623541038799335884670319460453, 9442866957533778902321628370814468358245, 3934789571476003477940638593319013, 4097048654877030362772521661497445, 4097048848305318298451010285207653, 4502696866292913778600069180686437, 4502697272491952275631722509369445, 20338287872938601615574855301366091420710994021,
  4502697137092297372285800407892069, 4624391265886504363486827507613797, 4097048964362040184161570851389541, 4502709806634923827096494840741989, 3934789378047946126607053186138213, 4502697098406708038110212289200229, 2147053380887431705683558501, 3934789552133135023847962400784485,
  3934789590818798145004243410485349, 9698051392036298341970327368283761672293, 20338288553476035334028553134059269060418338917, 4502696866293061352486688169918565, 8251851657140689445350464200012847906917, 3934789668190050600353704731213925, 19803072114912008829650111243526149318853525605, 3934789397390630113232602643038309,
  4502696982349792461595673869942885, 3934802337732677055199583536152677, 3934789687532955947952120539381861, 3934789571476132605179940896243813, 31194348001412725199633177489965157, 2205081589644681363213779045, 931561085895968817253, 4502697021035455582769547065688165,
  3934789436076440808359065515196517, 1876253905059999217633722469, 4502697059721164820720041653698661, 3934789378047890786392424243527781, 1876253840496452134254936165, 4624391420628880146867283036209253, 9698051392036472427260681749978268303461, 4502697175778006610236295010582629,
  4624391265886522810182522722320485, 4502697175777905153126297426198629, 4462132066428497338487769541902437, 4502697156435110486045100433473637, 3934789687533011288127167073878117, 4502697175778006610236295014776933, 4624391420628907817018577976819813, 4502696963007043911335078742982757,
  9698051716555006742938858338509853294693, 4502697175777960493459674985660517, 9442840387577275489922721863912323547237, 20338287872911342056970833455310727044870963301, 9698051554295613856809918485169977688165, 9442840103623289582348759939853764788325, 17305386696052604159280536547756616712076656742, 8251851778835495237785858230351445360742,
  8251851454316554723152192051389485023334, 4381002505385050881363366377422950, 4624391536685906403833069533397094, 1876253886613272736070369382, 894667553768046854246, 1876253794379583153848189030, 2147053251760236383820578918, 2147053316323840641804009574,
  4624391265886522810195716817813606, 894667566962186387558, 8251851657140863530622371881614066057318, 4502697156435202719809449398108262, 9357796284673925214662216905612800819302, 17305387206475911151444160201292473042131222630, 2089024840088876682278076518, 1876253932730190094948892774,
  931561081497884557414, 3934789455419143241728690015436902, 1876253886613343104814547046, 2205081718771898675235913830, 527765784756326, 9442840306447385618865464100161400602726, 1876253831273031718857080934, 2359824168342295008012927078,
  488183374544998, 1876253840496469726409523302, 2359824223682553617420648550, 9187628166173599047734575975628189728870, 4624391536685924850643113949003878, 9357796284673809157958777974310324666470, 4097048828962357610602781151854694, 3934789822932638521352580533059686,
  1051464838812176220262, 1876253923506747689366716518, 19624721193996491611934039874599797241440895078, 1876253831273031718865469542, 2147053187196596941481836646, 4097048945019236293624774109692006, 996124624183233609830, 1876253923506760883506249830,
  3934789706875805955225956221190246, 3934789668190198174310692433166438, 2205081589644637382727696486, 1023794762284030492774, 894667562564156653670, 4097048983704890191439804590194790, 4381002350642601308015944416624742, 4502697137092435722831168846954598,
  483785336422502, 1876253785156219913103212646, 4624391420628907817040568177918054, 4502697175777960493415693128040550, 1876253877389957873837015142, 2147053168749839673639043174, 3934789706875824401952437750988902, 3934789474761901015264565007482982,
  1051464900384833667174, 1876253941953548937687203942, 2205081663431662056083816550, 2147053233313531892552695910, 4624391536691929265852300562268262, 1876253840496399357686317158, 894667522981750636646, 3934789706875639934538088940830822,
  4462144987427675826414850771255398, 2147053224090120273285611622, 9442840387577024033416805607709763174502, 2147053177973268885104754790, 1876253877389957873849598054, 2147053307100494993257660518, 8251851859965133652558557742083401056358, 4624391265886578150454326254895206,
  894667593350494814310, 1023794806264508186726, 9442840347012127454777999026837881094246, 9187628166173347597205401861412500799590, 3934789513447628700007511827152998, 1953625185185451595375050854, 4097048674220027943998947049078886, 4624404264256833849565411566157926,
  2147053270206949671240204390, 1876253932730132920379900006, 2147059348409139550723506278, 2147053325547199484554903654, 1876253941953575325978853478, 2147053205643345413263065190, 4097048983704973201757349982765158, 3934789822932675414858320163373158,
  894667540573949263974, 2205081589644650576892395622, 19624721193996491611934039874599845619977683046, 1876253794379591949983154278, 9357796284673925214717557137833971417190, 1876253840496469726443077734, 2089024784748648859237875814, 9187628409562166120937018793866632888422,
  4502697137092444946238390098985062, 3934789552133171917336109782138983, 2224424402758453857320173671, 1876253941953522549385068647, 1023794762284013715559, 894667562564139876455, 17305443693349063416473166690670570535072563303, 2147053251760236383820578919,
  1876253775932843478185148519, 2205081589644654974896963687, 4502696943664147787174670439022695, 1876253822049708060505538663, 2147053316323849437897031783, 4097048790276722159637377480392807, 1876253997293794352932323431, 17305387631829113191745254313254742905361268839,
  4624391265886522810226503143391335, 1023794806264478826599, 19624721193995923704523166122509744702786371687, 4502697021035418689250613291647079, 2205081663431626871697047655, 483785328033895, 9442840306447385618828573563103190450279, 2147053224090129069357662311,
  1953625194408880806807208039, 9442839941364186838296623721454248132711, 8592134470274851960011830017861774999655, 4462132066428497338562536292745319, 2147053325547243464992751719, 8592134470274851959974936481335852662887, 19803070668711989980403477510506005889481179239, 2205081589644672567099785319,
  1023794797468402581607, 9698051392036240313420305392845010763879, 2147053159526529209435422823, 3934789494104852479723165089529959, 474989255983207, 2147053196420004162721284199, 4502697156435202719805051380957287, 1953625157515383863316054119,
  894667566962215747687, 2147053177973286477290799207, 3934789552133208810890227928268903, 1876253923506818058123477095, 894667597748541325415, 2147053187196667310238597223, 2205081589644707751484457063, 1876253794379534775372218471,
  19803070158288033950900429425806905641537634407, 2147053270206932079054159975, 1876253932730115328193855591, 4664956239836331061667767206805607, 1953625212855567705939378279, 3934789706875676828035032459247719, 4502697021035483252837279116296295, 1953625157515370669182812263,
  1060688246033421959271, 2147053325547199484554903655, 4624391536685897180513809272406119, 1876259964815515392147456103, 4502697156435110486124265258090599, 2147053260983648003129606247, 2147053288653764113693933671, 4097048983704973201739757796720743,
  2147053288653676152770003047, 8251851657140708788200471504634880458855, 3934789668190170504185785800982631, 1876259964815462615595614311, 4502709845320596171567638115254375, 2127710466316505233492017255, 2147053316323827447706419303, 17305387972111845195843812608561622856755052647,
  4502697059721008023456987775762535, 4624391265886522810226503185334375, 2205081626538090345757933672, 4381002505385041657991329522647144, 4624391265886449023175441514496104, 2205081626538094743804444776, 1876253831273031718848692328, 894667527379767787624,
  4624391265886449023219421979607144, 3934789378047816999385341670457448, 3934789590818835038558361489506408, 536561877778536, 8251878673310494280199817328366136066152, 8251851778835321152532394376919070539880, 1876253923506747689358327912, 2147053214866708653991264360,
  4502696866292876885085533463642216, 2147053224090120273264640104, 3934789668190022930268380463104104, 2205081663431648861929603176, 9442840144188031418353528582500679417960, 4097048886990944529013058461237352, 4624391420629046167638713177210984, 2147053251760205597511778408,
  4502697137092417276056308811825256, 9442839738539839345264782752054998204520, 8592134226885762630910653863662517747816, 1023794762284030492776, 2147053270206984855593418856, 17305387206476519624003069199562477050850705512, 4502696846950137558188179108921448, 2205081589644624188600746088,
  8251852022224100996771323112251029717096, 894667553768076214376, 4097048945019236293659958494363752, 2147053205643384995669082216, 2205081718771863490893185128, 1876253923506800465937432680, 894667588952448303208, 8251851576011167087613242193762356035688,
  2147053270207006845838557288, 4381002505385207675811670519709800, 1023794828254740742248, 2147053168749857265843961960, 3934789455419170911778829924040808, 3934789706875796731853919391580264, 2147053316323809855520374888, 2147053343993925966084702312,
  1876253794379569959750598760, 1051464873996573474920, 4502697059721008023430599496695912, 9442839738539916716572578320543333220456, 8592133821237705957569042249573363351656, 1023794775478195191912, 4624391420628880146924457638756456, 19624721193995923704349080730698244214646374504,
  2147053325547239066979795048, 2147053270206993651673858153, 2089024710961610991712862313, 3934789571476077264916933410553961, 4502697021035510922931400821702761, 8251851657140998930277275227536180117609, 14874624363673400666832765033, 2089024710961681360463331433,
  4381002350642582861241084387786857, 19624721193996491611934040022173828995960799337, 4462132066428441998255548390178921, 2127716535295270299545632873, 4624391265886522810182522703446121, 2205081589644663771015151721, 9442839941364264209585972537072772186217, 9698051554295613856809918485169954619497,
  9442840347012340225888271964206702526569, 10378616125878252640020404710898501943401, 8592133780672828721780243043693614858345, 4097048983705010095245497387188329, 4381002428013853763325823329239145, 8592134186321194880233133086459446689897, 9442839941364186838333517161223174488169, 4502696963006960900986747029028969,
  9442840347012378911366925666556479275113, 4097048867648159082392391551811689, 4502697175777886706439398300319849, 9442840387576985347726014366104512626793, 18019011988605846337565358111610326543270674537, 20516751001937310889577480908568578198322806889, 9442840103623366953619661993807737520233, 4624391420629036944275472434331753,
  9187628166173599053775881792241761517673, 19803071094064908066834720742721932950025273449, 426610750652521, 1060688246033421959273, 8251878592180759151647470250343790542953, 894667562564177625193, 4097048983704982425160173158924393, 65419289299858525392395518905477775753322,
  4462144987427675826392860509339754, 4462144987427675826441239020961898, 4097048635534217248964843118002282, 9357796284673809157811204017322593353834, 1876253923506818058094116970, 1876253868166599031104995434, 9357796284673809157894214400838658424938, 931561024323288301674,
  8251851576011263801641917875948892455018, 4097048983704890191448600683217002, 8251851454316554723207532349581340704874, 3934789358705133012781781103935594, 2127710374082842039536320618, 894667619738773880938, 3934789455419226252011051052695658, 4664956162465097053093165927497834,
  1125251832699225636970, 9698051959943612501583061375348658667626, 1023794749089916125290, 8592134470274677874841379415471815655530, 4502696963006960900986747043709034, 2147053168749896848262561898, 3934789552133190364128562045255786, 2147053224090129069391216746,
  4624391265886522810204512952778858, 20338288213194398579835821112376126347153506410, 2205081589644672567124951146, 2147053325547243465026306154, 9187628166173482990735986271620060676202, 4624391265886402906420810398826602, 1023794771080123514987, 1876253868166511070204133483,
  2147053224090076292791140460, 2147053224090080690837651564, 1876253923506752087396450412, 1023794735895734648940, 9357796284673925214819014168666680852588, 9442840387577275489885828336182437609580, 17305387546758521461626695252309995475771064428, 3934789590818945718974425235193964,
  2147053168749874857988063340, 2205081626538138724269555820, 8251851859964901538736631009744309452908, 17305387972111155594207430583914035696998809708, 894667571360232898668, 3934789474761901015304147403014252, 17305388142253069221403050907279636913354440812, 1876253997293776760746279020,
  4948909974287417557070368525516908, 2147053205643402587825766508, 1876253960400306205513220204, 17305387546758521461665380989218128051618971756, 894667597748511965292, 4867780258501595313526459758280812, 2205081663431657658014236780, 4381002428013936773740125692625004,
  2205081589644690159269052524, 1023794832652757893228, 996124606591039176812, 19624721193996491611934039874599797241432506476, 1953625083728367986038276204, 4624391536685906403833069541785708, 1051464856404353876076, 9357796284673925214736003833529135792236,
  18019011818464176099497752506422176155177058412, 4502697059721008023417405323608172, 3934789726218508388635163169390700, 2147053325547221474760196204, 1876259983262228679504167020, 2127716535295331872180011116, 19803070243358990764411190896393651575062528108, 9357796284673925214736003886305693925484,
  2089024710961676962412626028, 1876253923506826854195527788, 931561094692032479340, 8251851454316806179695001874904291213420, 17840604410676601867219442419029365533236527212, 2147053307100424624500899948, 2205081718771815112368980076, 4624391343257627694486503083212908,
  4624391265886421353068127059968108, 4502697291834885293240695755112556, 894667540573924098156, 4502697137092297372228625792761964, 894667566962203164780, 8592134470274755246020050704543109873772, 4462144987427675826441239037739116, 4502696963007080804840818316673132,
  1953625037611556180284407916, 2147053177973268885092171884, 3934789416733563133792665087246444, 8592134470274871302843390578410102194284, 1023794779876216537196, 17305387631829478274982720397642373682375426156, 19803070243358625681425181437828967811912826988, 1023794801866449092716,
  1876253941953566529866956908, 3934789668190050600415277361397868, 2147053224090155457645117548, 2147053307100503789338099820, 1876253822049650885923962988, 1876253877389883107052617836, 4502697175778006610218702803566700, 1953625212855567705926795372,
  4624391265886402906328451403219052, 4624391265886467469932709386649708, 4624391265886541256909004224856172, 4624391265886504363464837270863980, 4624391343257793712289251871162476, 3934789494104889373237700787699820, 1023794727099670986860, 9357796284673925214736003815936970719340,
  1023794731497717497964, 3934789668190198174293100259704940, 8251851413751890258344541450683681865836, 2147053307100446614746038380, 10378616450396844984082582578205435101292, 1023794775478182609004, 1876253849719824171099226220, 931561085895960428652,
  1876253831273031718890635372, 2205081663431582891265491052, 2205081589644624188613329004, 1023794762284055658604, 894667571360274841708, 2224424439651977189153308780, 894667580156367863916, 4502697137092435722861955197698156,
  1023794806264520769644, 536561919721580, 3934789706875676828008644144529517, 2147053214866708653982875757, 3934789668190050600344908600442989, 1953625175962092752624156781, 4502697137092444946168021312864365, 9442840306447675761071394996394316005485,
  1876253840496416949843001453, 1876253840496421347889512557, 1023794749089874182253, 2359830292661314285436141677, 4056483796984128464372604105392237, 3934789706875676828048226563129453, 1876253868166559448686395501, 1023794771080106737773,
  14874624179205964327771177069, 2147053159526520413319331949, 2243767400339759447536566381, 2147053168749896848220618861, 2147053177973268885075394669, 9698051392036259656251866028160097189997, 1876253822049708060505538669, 137194193393777271327395398068113165928447869037,
  4624391265886430576484144363077741, 1023794779876199759981, 2147053316323849437897031789, 1876253941953544539617624173, 8251851859964746802337589727295157829741, 894667580156325920877, 17305387631829113191919339649728869902646771821, 501377505689709,
  2147053168749914440406663277, 1876253803602981578982031469, 4381002505385078548598756476977261, 4462132066428441998330315155701869, 4502696866292950672088216572526701, 9187628409562378891862824224527629680749, 9357796284673925214819014230239332008045, 4664956162465078606406266780647533,
  2147053380887471288066506861, 894667593350465454189, 17305387972111155593955974068774425049788579949, 4502697214463586721105816934416493, 2205081589644681363176030317, 8251851657140979587464161428653744324717, 2359824168342330192376627309, 4948909974287436000942517863317613,
  9442840103623366953656558380266398154861, 2205081718771911869375447149, 8251851413752064343736350088043555717229, 1876253831273031718857080941, 8251851778835321152458607409420325355629, 2147053224090085088892551277, 8251851778835495237804304974425163300973, 8251851778835321152532394412103442628717,
  2205081718771845898686169197, 3934789590818798145043825799725165, 4462144987427675826436840982839405, 8251851657140979587556395118235974893677, 2205081718771863490872213613, 8592134064626408430537068886972191211629, 1953625194408880806807208045, 14874624363673409462921592941,
  9442839738539839345227886383187105939565, 18019012073676154114316979286197301057146585197, 9442840387577101404724604083306795892845, 505775560589421, 4462144987427675826467627308417133, 894667597748520353901, 2205081626538169510603522157, 9442839738540110144768280265469236084845,
  2147053307100503789329711213, 3934789552133153470693191150731373, 2147053177973229302673571949, 996124624183233609837, 9442840306447327590380005750970888749165, 894667540573924098157, 474989243400301, 9442840306447424304334894487648933511277,
  9698051392036453084419897848179393036397, 9357796284673925214763673971629941063789, 1023794775478170026093, 894667571360249675885, 4502697137092297372259412118339693, 9442840103623366953564324659897867173997, 4502697175778071173880135385350253, 1953625157515397057443004525,
  2205081589644672567099785325, 894667593350482231405, 8251851657140979587464161424255714590829, 2089024784748648859212709997, 2147053260983639207017709677, 1934282206051004428058624109, 1023794806264495603821, 8251851778835263124083829507079897350253,
  9357796284673925214736003815936970719341, 894667527379797147757, 4502697021035418689211030894018669, 1023794753487950053485, 2205081589644637382740279405, 1953625046834919421058744429, 2205081626538134326252404845, 4502697059721081810402496275808365,
  9442840387577198118670266514450983944301, 1876253840496447736197939309, 8251851413752064343607222826751060082797, 3934789397390667006711953960730733, 1876253849719824171099226221, 2147053325547221474781167725, 2147059366855905614659321965, 3934789397390630113241398727671917,
  4624391343257627691605782631022701, 4502697059721044916940737135771757, 2205081663431648861950574701, 2147053307100494993257660525, 1876253932730190094978252909, 4381002350642702765134738110808173, 1876253785156241903348351085, 9698051392036414398895127303237543133293,
  4502697214463586721110215010287725, 2205081626538178306717515885, 4381002505385226125432066647523437, 1023794832652787253357, 2147053214866708654024818797, 2205081589644610994473795693, 4097048828962357610620373363064941, 1876253868166528662402760813,
  4097048983705010095245497401868397, 8251852022224391138949583870383169208429, 1953625175962105946805633133, 2205081626538125530171965549, 894667562564181819501, 3934789706875676828048226605072493, 1876253941953535743566545005, 2147053177973268885117337709,
  8251851413751812893253295736722852675693, 2089024710961668166353158253, 1023794797468427747437, 19803070923923846300784425387066088280899453037, 2147053187196662912204669037, 2147053205643406985914220653, 8251851413751890258455221915125951758445, 2147053251760267170188099693,
  4624391265886366015778199030464622, 9357796284673925214736003815936941359214, 2205081589644610994431852654, 1953625157515370669147160686, 8251851697705721423478153443337553576046, 2359824168342321396283605102, 4624391265886504363478031387328622, 2089024710961672564357726318,
  2089024710961676962404237422, 4502697214463586721110214980927598, 9187627841655006703709288768524762742894, 8251851494881722101211488695656577499246, 2089024710961685758497259630, 931561094692024090734, 8507063107812858977288265421079927849070, 2147053224090080690846040174,
  9698051392036453084364560523066999832686, 2205081589644624188579774574, 9442839941363974067481498706856955084910, 2147053307100446614725066862, 2127716535295331872180011118, 4502696963007136145095029669494894, 1023794806264487215214, 4502697137092435722870751257165934,
  2205081589644690159277441134, 3934789668190050600424073446031470, 2147053214866708653999652974, 1023794735895751426158, 3934789552133144247228795327610990, 2147053325547181892349984878, 4948909896922243301008076007538798, 2147059366855905614646739054,
  9442839738539994087889597261068472680558, 2089024747855173905933140078, 8251852346742654655115039525085124755566, 1953625083728367986059247726, 8251851859964901538736631009744338813038, 1876253840496469726430494830, 1876253877389957873849598062, 1953625194408898399014223982,
  894667597748541325422, 8251851657140689445304347405799263305838, 4502697175777886706474582674505838, 3934789552133171917419672695210094, 2147053224090164253750722670, 931561006731135811694, 894667522981763219566, 9442839779104871323475482286536855126126,
  9442840063058605774654205511726385856622, 1023794735895776591982, 1876253923506760883531415662, 1953625212855585298131714158, 1125251832699225636974, 1023794771080148680814, 9442840306447385618819350191066369228910, 3934789494104852479745155340959854,
  2224424476545487326763024495, 2147053316323809855480529007, 4502697098406800271777804247367791, 4502697175777923599909953508212847, 894667588952421040239, 4502697137092297372277004289704047, 20338287872912112788709857472247752577687486575, 9698051554295613856717684782393569837167,
  2147053224090164253723459695, 426610719195247, 2147053316323792263296581743, 9442840144188031424440954069650222612591, 8251852103353913496548455366449537482863, 1023794753487924887663, 1023794757885971398767, 931561077099842240623,
  4502697214463512934133920146915439, 8592134389144981431795356274656991510639, 4502697175777988163562590005362799, 4624391265886485916747151821504623, 9698051716554968057303407351115922014319, 2205081589644632984670699631, 1023794757885973495919, 3934789416733609247732546467266671,
  1953625194408902797039763567, 3934789687532946724531705145720943, 3934789706875796731853919360122991, 4502696963006960900986747012251759, 9698051554295401085773432598862736916591, 1023794797468398387311, 2147053177976167197742989423, 1051467794299431682159,
  488183385030767, 426610738069615, 3934789397390630113184224116736111, 4502697175777886706404213924036719, 2147053343993943558251872367, 894667562564162945135, 1023794775478176317551, 1051464900384833667183,
  4502696866292950672105808781639791, 9442839860234451709725829877367941628015, 894667527379795050607, 894667624136818294895, 2147053168749839673647431791, 9357796284673925214736003815936972816495, 3934789668190050600397686567862383, 4624391265886467469950301581082735,
  4624391343257719925312957041344623, 2205081589644681363207487599, 8251851413751890258464442397647616082031, 9442840387577294832735835719969334624367, 19624721193996491611934039874599788445366747247, 4624391536685758829871683799613551, 996124606591066439791, 8251852103353816782455216123986866864239,
  894667522981756928111, 2127710374082762874705412207, 1876253849719784588686917743, 9442840144188031418298188350280951660655, 3934802337732677055160001115455599, 9442840063058605774764885989362776408175, 8592134470274851960011829978279383662703, 4462132066428441998290732772753519,
  3934789552133236480966756080287855, 488183401807983, 17305388142253069221209622905268517955543498863, 1876253822049738846866767983, 8251878592180759151555236468402593726575, 4502697137092444946163623304101999, 4502697059721238607696336489807983, 488183403905135,
  1876253923506826854224887919, 4502709845320596171594026392223855, 1023794797468425650287, 1876253849719784588695306351, 4502697021035566263242786787557487, 4502696866292950672114606260879471, 19803071094064380724223717549837553752069898351, 4097048983704973201757349991153775,
  2147053270206993651722092655, 2147053325547173096240185456, 1953625175962092752624156784, 3934789552133236480949163858591856, 8251851859964901538681290777523180798064, 1023794749089874182256, 2224430600864475817869049968, 9442840306447308247539224738688581763184,
  8251852022224042968147514191303751499888, 2147053168749888052127596656, 3934789706875676828048226563129456, 9442839738539994087815810284773617696880, 1876253877389931485541171312, 3934789571476077264930127543795824, 4624391265886485916707569398710384, 483785319645296,
  2089024710961650574125170800, 9442839697975174880530916180952824676464, 8251852022224100996762099771000471158896, 19803070923923197264025285220190693035213848688, 14874624179205977521910710384, 2089024747855147517637296240, 8251851778835321152532394438491713306736, 8592134470274677874841379459452238823536,
  2205081589644672567083008112, 8251851778835185752785257376599110582384, 1934282242944483779367927920, 2205081663431648861921214576, 1023794797468385804400, 19803070243358301162774808954756386358753755248, 4097049003047813985764701905092720, 19803070413499484623282726312671358208228458608,
  1953625194408898398984863856, 2205081589644676965129519216, 2147053187196662912162726000, 9357796284673925214736003886305685536880, 1023794801866432315504, 1876253941953566529850179696, 894667597748511965296, 2147053224090155457628340336,
  3934789494104852479745155299016816, 1876253932730203289088426096, 1876253941953575325943201904, 1023794815060571848816, 4502697156435073592653709989380208, 9357796284673925214837460899546259259504, 4502696866292876885045951045042288, 3934789668190050600340510562320496,
  2147053214866708653991264368, 2089024710961606593668448368, 2205081663431587289278447728, 2205081589644624188579774576, 1953625139068626595445997680, 2205081589644646178812330096, 19803127325725879492561607553440179039772868720, 1876253803602955190711353456,
  9442840306447424304408681463943763329136, 9442839981928831960383397128764716482672, 1023794771080115126384, 3934789378048001466821680727851120, 894667571360241287280, 4624391265886513586832476064448624, 9357796284673925220878769640860742058096, 2127716535295331872180011120,
  1051464900384818987120, 4502697059721081810420088440881264, 19803127325725879492638978962692861923717808240, 894667588952427331696, 3934789474761901015321739597447280, 4624391343257627691605782610051184, 3934789822932555511079015622377584, 4381002505385078548598756485365872,
  4502696846950137558254149785616496, 1876253868166585836973850736, 9442840347012282197375143494507554668656, 2147053307100494993236689008, 8251851859965017595670651365645753516144, 894667593350473842800, 1876253785156241903327379568, 9442840103623366953610441520082132664432,
  17305443863490449700709607254477545927105052784, 9442840063058393003811413371690122477680, 41530048545406245391520620023309349913354395522695280, 536561886167152, 8251878673310494280384284769103239970928, 2205081589644606596402118768, 9357796284673925214726780443900103360624, 444202917822576,
  3934789668190041376977269808955504, 3934789590818918048849518594621552, 1876253997293737178344456304, 3934789571475948137712815500689520, 2205081589644646178820718704, 4502697175778015833639118163673200, 17305388142252866397113586277883796448568410224, 1023794779876216537200,
  4624391536685906403881448061796464, 1876253997293776760763056240, 1876259983262228679512555632, 2147053233313505504267337840, 894667580156342698096, 3934789706875639934586467439870064, 2205081589644676965146296432, 8251851859964901538644394413053360210032,
  1023794801866449092720, 1876253941953566529866956912, 4462144987427675826472025363316848, 1876253785156272689661345904, 1876253785156162738504859760, 1014571350664763408496, 1876253941953487365036048496, 1876253988070347549309927536,
  1876253997293719586164703344, 4502697175777960493376110715732080, 2147053270206949671227621488, 2147053260983621614837956720, 1876253877389971067982839920, 4381002350642684318403858534498416, 1953625175962083956560494704, 1023794731497717497968,
  2205081626538099141880316016, 2147053224090085088913522800, 1876253877389900699244953712, 8251878592180759151693587066547593019504, 1876253941953504957228384368, 2127710374082798059071209584, 17305443693349063416183024530856547680591544432, 2147053251760236383849939056,
  2147053343993956752397697136, 3934789397390630113219408495116400, 4502697021035418689250613312618608, 1023794775478182609008, 1876253905060051994181369968, 2205081626538143122345427056, 19624721193996491611934039874599863212151144560, 4381002350642702765134738110808176,
  3934789397390630113245796774183024, 4624391343257636914982217532309616, 8592134145756066187864630718449697423472, 1953625194408902797060735088, 17305387206475911151695616697985348411754283120, 2147053307100503789350682736, 1023794832652787253360, 2147053177973211710506401904,
  4948910090344176333300395151458416, 17305388142252866397423071269258362259230425200, 4502696963007053134689523399131248, 3934789687532946724531705170886768, 2147053316323809855514083440, 4502696963007136145037855092113520, 2147053260983595226571473008, 37788606316304456152660403714621265671847824788029552,
  19624721193996491611934040022173776219415249008, 4624391265886541256926596423483504, 894667575758315061360, 4624391265886356789512247607033968, 9442840347012204826030454424677713444976, 19803071604487849976263791351375579778272723056, 3934789822932555511065821510107248, 20338289063900275317285401122779846481731911792,
  17305387546758196943073036825580318405181833328, 1953625120621908910042775664, 8251852062788920204000877019035072462960, 4502697175778006610280275467305072, 4502696963007080804849614428569712, 19803071008993951253594758720292498995924697200, 3934789358705040779074606702002288, 19803070158288033951016480115610228800016613488,
  9442840306447385618773230384190932910192, 2205081718771819510440657008, 4502697021035391019099318388785264, 3934789706875796731853919391580272, 4502697175778052727096479282364528, 1876253822049699264454459504, 2205081663431622473684090992, 9357796284673925214772897343666821005424,
  2147053288653724531281625200, 2147053316323840641845952624, 894667566962228330608, 2147053325547221474793750640, 4381002350648744073801285815500912, 2147059366855905614671904880, 894667580156367863920, 3934789552133208810881431847829616,
  14874624216099474465464778864, 4624391265886375236212340857766001, 1876253849719784588693209201, 4624391265886458246560672550748273, 4624391343257756818757124005822577, 2147053316323809855520374897, 4502697175777923599905555501547633, 17305386696052604159183828671067162804813299825,
  4097048654877150266595806648729713, 4624391265886522810182522720223345, 9442840144188031418252074370815733268594, 1876253840496399357656957042, 1023794727099641626738, 9357796284673925214736003815936941359218, 9187627841654716561401900722711831773298, 2359830292661314285436141682,
  894667566962186387570, 1876253905060051994152009842, 4502696943664147787174670439022706, 2147053205643384995639722098, 2359824094555336305352376434, 9442839738539994087852703772921036800114, 2147053325547230270844829810, 2147053205643406985872277618,
  1876253905060078382431076466, 1023794806264478826610, 1023794828254711382130, 894667624136791031922, 4462144987427675826498413625606258, 41156023301432130376950695591096713984447071620431986, 17840604410675952829938040312114892479966216306, 9442866957533778902321628348824216928370,
  4097048983704982425116192664453234, 4624391343257600021423701348057202, 3934789706875676828008644152918130, 9442840630965861905947501831079738736754, 9698051554295478457118121589527766106226, 4502696885635846796204644371529842, 2147053325547173096248574066, 9442840347012456282766954911432852897906,
  439804862922866, 9442839738540090801909046628925050978418, 9698051716554677915134369881457770365042, 9442839981928831960383397102376437416050, 8251851819400256416769758479027659604082, 9357796284673654415435420500527648079986, 9442839941364051438789294270947218423922, 4502697021035381795736077593477234,
  2205081663431600483417981042, 1876253868166537458462228594, 9442840347012204826168804970046135730290, 4462144987427583592698880249036914, 2147053270206967263398985842, 2205087787750641751082139762, 894667553768055242866, 4502697175777886706430602188423282,
  4502697214463549827586883198124146, 8592134551404316289337380668808762490994, 9442840144188108789596760520342726770802, 2050339213861182160416800882, 2205081589644650576858841202, 9442839941363993410202378846943481692274, 1023794775478161637490, 4624391536685749606556821522219122,
  4624391420628880146924457605202034, 1876253941953544539626012786, 9442840387577275489885828375764864598130, 9698051716555006742809731160780172165234, 4502697156435202719822643546030194, 4381002505385207675798476359204978, 505775560589426, 8592134470274600503422903435317773074546,
  3934789590818835038562759544406130, 9442840387577024033453699126643486883954, 2147053325547243464992751730, 9357769187374656050588770289086642520178, 4502697137092334265773947808120946, 9442840144188360246194910514506002071666, 9442840387576946662219690538848061751410, 4624391420628972380675612478537842,
  4664969083464100296999925413052530, 8251852103354010210650918086503588429938, 532163839656050, 2205081589644707751463485554, 1023794731497704915058, 2147053205643345413237899378, 3934789397390750017020703222530162, 4502696924321482247253610918314098,
  894667536175877587058, 9442839738539994087769693424589360595058, 2205081718771832704555024498, 9357796284673925214680663632094341103730, 9357796284673925220878769640860750446706, 1023797678188867354738, 8251852346742654655198049939387502821490, 894667593350482231410,
  2147053260983643605064220786, 1023794806264495603826, 1023794832652774670450, 1953625120621851735431839858, 931561011129169739890, 4624391265886421353063729026039922, 2205081589644610994461212786, 2147053187196596941494419570,
  8251851778835321152532394385715184533618, 1051464856404374847602, 4502697291834839176402501726371954, 1023794762284043075698, 4502697137092297372255014084411506, 4624391343257738372048234655776882, 483785349005426, 2147053168749896848249978994,
  1876253794379591949970571378, 894667580156355281010, 4502697137092297372268208223944818, 894667593350494814322, 1876253785156241903348351090, 4502697137092435722861955185115250, 2205081589644681363205390450, 14874624252992892244139704434,
  2205081718771810714347634802, 1023794735895776591986, 1876253794379552367564554354, 2205081663431600483451535474, 2147053177973246894884782194, 1876253886613290328298356850, 3934789706875676828048226605072498, 1023794771080148680818,
  2147053159526520413361274994, 2205081718771859092859256946, 8251852022224410481771921124865330905202, 894667597748553908338, 3934789590818835038567157624471666, 9442839738539839345218665891870707548275, 2205081626538090345757933683, 2147053224090076292791140467,
  1953625120621851735402479731, 2205081589644606596385341555, 2359824094555296722933776499, 9442839738539839345366236915361407565939, 894667562564139876467, 2147053177973260088982372467, 4502697137092297372250616008540275, 2205081663431622473642147955,
  9357796284673925214772897343666779062387, 4462144987427675826436840974450803, 1876253932730163706669826163, 2147053325547212678658785395, 1934282390518409980765274227, 4624391265886541256939790527365235, 1876253775932843478185148531, 19624721193996491611934039874599845619935740019,
  8251878592180759151555236525577160622195, 4624391265886384459623960089198707, 4097048945019282410524540785393779, 8507063107812858977288265385895555760243, 1023794779876199759987, 2147053325547221474751807603, 1023794788672292782195, 1953625203632266037793128563,
  8251851859964901538653617780692151697523, 9357796284673731786706322633645088571507, 4097048945019402314383010130034803, 4462144987427546699263509379678323, 1876253886613343104814547059, 19624721193996491611876011545938851842272264307, 19624721193996491611934039874599797241432506483, 1023794731497696526451,
  9442840387577024033472145800348452257907, 1876253941953496161114390643, 439804862922867, 4624391420629036944218297810813043, 1060688246033394696307, 2147053251760236383828967539, 1876253960400279817242542195, 3934789590818761251560076427133043,
  8251851778835321152532394425297582162035, 1876253794379591949949599859, 4624391536685897180509411198632051, 4381002350648744073801285781946483, 4624391536691947712565587931562099, 9698051392036414398719883221343141888115, 1876253840496460930316501107, 8251878592180759151712033863397839732851,
  501377514078323, 1953625092951805993590718579, 9357796284673925214772897370055066517619, 4624391420629046167638713177210995, 8251852103353913496548455414828053299315, 9357796284673925214736003886305693925491, 894667597748520353907, 8251852103353913496548455419226099810419,
  4502697137092297372294596482039923, 1023794823856673259635, 2147053325547265455225307251, 1876253923506756485459738739, 3934789706875805955225956221190259, 1953625194408841224396996723, 2147053251760214393604800627, 2147053270206958467314352243,
  8251851373186916308582406790439078199411, 4624391265886356789499053448626291, 19803070668711340943547617144521929716039417971, 1876253868166559448703172723, 19803070923923602911849838698566934625934901363, 2147053224090124671319539827, 3934789590818798145070214087180403, 8251851819400004960245395553518207631475,
  2147053224090155457645117555, 4624391265886532033602938061455475, 1953625175962083956560494707, 2147053224090080690867011699, 2147053224090085088913522803, 474989255983219, 3934789629504387479223811992191091, 9442839738539839345237109728835702620275,
  8507063107812858977251371888952072994931, 9442839738539994087815810284773647057011, 4624391265886522810195716847173747, 41156023301432130376950695591096880005192113538990195, 3934789668190022930268380484075635, 4502696885635717669044506937262195, 4502696866292950672070624415842419, 4502697137092389605979780678680691,
  8251852062788997575299449211088474734707, 894667580156355281011, 4624391265886449023237014195011699, 8592134470274929331356519065701431902323, 2147053177973286477290799219, 17305388057181909583757561317015982656670662771, 4502696885635865243014688799719539, 9357796284673731786706322638043164442739,
  9442840144188031418418095067479148593267, 1953625212855567705945669747, 2205081663431578493218979955, 4502697156435110486045100427182195, 2205081718771819510440657011, 3934789668190069047093380398448755, 2147053251760205597536944243, 4502709845320596171550045929209971,
  4097048983705010095245497401868403, 4624391420629009274097789233528947, 4502697175777923599909953548058739, 9357796284673654415453867270989670252659, 2205081589644650576892395635, 9698051392036414398756776709490594545779, 4624391420628953933909548569985139, 9698051554295613856809918485169971396723,
  9442840103623289582348759922261572452467, 501377547632755, 2147053168749914440448606323, 9442866957533778902358521907340413763699, 4624391420628907817058160389128307, 2147053325547243465026306163, 2089024784748653257284386931, 4502696846950063771207486194843764,
  8592134510839729195791405785735330005108, 1876253868166515468221284468, 14874624363673356686355071092, 1023794731497688137844, 2147053325547173096240185460, 1023794762284013715572, 2205081589644646178803941492, 2147053168749888052127596660,
  9442840387577198118670266510052908073076, 1876253868166559448686395508, 4462144987427675826436840974450804, 9442866957533778902321628397202720161908, 4624391536685740383180386612543604, 2147053205643384995639722100, 4097049003047813985747109719048308, 894667580156325920884,
  4097048983704890191457396759462004, 1876253840496460930308112500, 4462144987427675826454433160495220, 17305387461688051425675616107588704097634615412, 1953625046834945809308450932, 1876253803602981578982031476, 3934789436076330127885827127115892, 8251852103353739411276547764013114589300,
  2243767344999549216640467060, 2147053307100494993228300404, 1876253941953562131803668596, 8592134064626408430555515657434171441268, 2147053307100508187367833716, 894667624136791031924, 4462144987427675826498413625606260, 4502697137092435722782790326943860,
  2147053214866708653991264372, 1876253868166519866276184180, 17305386696052604159203165304524652481758625908, 4502696866292876885076737370620020, 2205081626538125530138411124, 4502696866292950672053032208826484, 894667562564148265076, 41530050151060154870443955234028243728390652386345076,
  894667566962194776180, 2205081718771859092825702516, 4502697021035520146343018694180980, 2359824094555327509267742836, 4624391343257627691588190424006772, 2205081626538143122324455540, 2224424476545465336538857588, 2147053316323849437905420404,
  8251878592180759151684363738491182383220, 8251851657140940901801040263576649990260, 2147053168749914440415051892, 19803071094064542983616597600578185893817352308, 8251852022224410481716580901440261718132, 4624391536685887957154966529900660, 2224424476545487326771413108, 4502697137092389606001770890264692,
  9442839860234451709799616928429553746036, 3934789668190050600415277353009268, 2147053325547265455225307252, 536561886167156, 2147053224090076292807917684, 19624721193996491612108125358644996107938037876, 4502697098406744931527990947348596, 3934789397390750017020703222530164,
  3934789668190170504185785775816820, 2147053316323809855495209076, 1953625175962105946780467316, 3934789668190050600371296896286836, 1953625046834919421046161524, 4097048945019236293659958481780852, 9442839738539994087825033656810489249908, 1023794775478170026100,
  1876253941953544539634401396, 1023797678188867354740, 9442839697975174880549362925026551005300, 1023794788672309559412, 894667588952435720308, 4462144987427675826463229270294644, 4462144987427546699263509396455540, 8592134389145039460225477276744906965108,
  9442840063058779860073690053026036842612, 894667624136807809140, 3934789552133236480931571701907572, 9442840063058605774654205502930280251508, 2205081589644606596414701684, 4502697059721081810362913857208436, 1023794735895764009076, 894667540573936681076,
  2147053177973260089011732596, 2205081589644650576879812724, 1023794779876229120116, 2147053325547221474781167732, 2205081589644663771019346036, 931561068303774384244, 1953625203632266037822488692, 4867780181130324411446118896894068,
  4502697137092297372277004316967028, 17305388142252866397113586314777306586232651892, 4502696885635809902782467671064692, 1023794797468415164532, 9442839738539916716600245555933420191860, 1953625175962154325304672372, 2147053316323867030112436340, 8251851576011399201435171806821883052148,
  505775581560948, 2147053168749918838482534516, 2205081626538165112577982580, 9442839697975174880623149901321401794676, 9442839981928754589038708023750503170164, 9698051959943921986611329438102807642228, 2205081626538085947747074164, 19803070158288033950900429425806905641537634420,
  2147053205643327821070729332, 1953625102175103263682068596, 2147053260983560042199384180, 4097048654877150266560622270349428, 2147053325547164300182814836, 3934789571476132605113970196480116, 4624391265886578150379559470497908, 9187628409562166126959877796037725782132,
  3934789726218508388595580778053748, 8251852103353913496585348841402848510068, 1014571368256962035828, 4624391265886485916676783108784244, 1060688228441235914868, 2263110038209507221940732020, 2147053205643363005442818164, 1876253905060034402001617012,
  4097048983705019318635126436397172, 9442839819669729216571068578925444595828, 4502696885635736115792978699616372, 3934789629504498159701448395325556, 4502696846950183675101139947225204, 1876253905060060790280683636, 1953625194408885204880982132, 2147053380887458093962625140,
  2147053168749927634581848180, 4502697059721044916953931281596532, 1876253812826366810011992180, 17305443693349063416473166690670526554649395316, 1023794727099683569780, 4502697175778043503724442427588724, 1876253775932843478227091572, 2205081718771859092859256948,
  4381002428013899883119504640704628, 8251851413751890258409105054941677879412, 8251851859964901538635171036618484088948, 9442840103623560381649343259661106675828, 2147053270207006845851140212, 2205081718771889879184834676, 4624391265886366012857896149188725, 8251852022224100996605302437579256234101,
  4381002350642684318320295652884597, 4056483796984128464359409993121909, 1051464873996558794869, 19803071519417866718007800191843971544242978933, 488183393419381, 2205081589644681363203293301, 894670478469004001397, 4502697059721008023382220978782325,
  931561006731129520245, 8592134470274851960011829969483290640501, 894667571360268550261, 1051464838812197191797, 9442839941364264209549079070915598221429, 2089024784748653258651730037, 8251878592180759151665916994417504288885, 426610759041141,
  894667522981721276534, 4502709806634923827012931929768054, 3934789590818945718956833049149558, 2205081589644624188571385974, 1023794749089874182262, 1876253886613290328256413814, 8251851778835321152532394412103434240118, 931561050711558979702,
  9442839738539994087815810284773617696886, 1953625120621895715867590774, 2205081718771854694770802806, 17305387461688416509299938325128714803314950262, 9442840306447462990099472740733375479926, 894667588952418943094, 4624391265886421353129699694346358, 4462144987427675826463229253517430,
  1023794801866432315510, 4502697059721081810362913836236918, 4624391536685906403833069541785718, 41530049794248742117382671919530073298854887668318326, 4097048983704973201774942135255158, 2359824131448798064500801654, 894667562564148265078, 4502697137092297372250616016928886,
  2359824223682527229141581942, 894667571360241287286, 4624391343257618468216153569230966, 1876253794379591949949599862, 4502697059721044916923144928755830, 4624391265886402906368033807138934, 2205081663431631269743558774, 1876253941953544539626012790,
  2224424587225929778796167286, 501377514078326, 4502697059721008023452589695697014, 2147053159526542403560276086, 1953625046834945809316839542, 3934789397390667006729546125803638, 1876253849719841763264299126, 2147053316323867030091464822,
  4624391343257775265558372286464118, 894670469672900493430, 1953625102175103263663194230, 4624391265886504363407662659928182, 2147053224090080690854428790, 17305387546758521461665380841644175461959336054, 894667527379784564854, 4502696885635717671942819575496822,
  4502696963007099251545309607624822, 2147053233313461523802226806, 9783122146025848472703432204759940989046, 2205081718771832704555024502, 474989243400310, 1876253868166559448703172726, 8592134389145078145676457977865606004854, 1023794779876216537206,
  9442839738539916722678447710628518822006, 9357796284673809157884990980423308804214, 2089024710961668166327992438, 2147053205643402587842543734, 4056484183840538315032917983625334, 2205081718771885481113157750, 17305387972111317853484259852617659496154529910, 1876253941953566529866956918,
  17305387631829113191764596997241372854252994678, 2147053177973299671417749622, 2359824094555362693648220278, 4502697137092297372294596490428534, 2205081663431666454124036214, 1023794815060588626038, 9357796284673654415297069946363126481014, 9357769187374656050588770258300337913974,
  4624391343257793712276057737920630, 2359824094555345101474758774, 2205081589644681363205390454, 1023794806264508186742, 536561907138678, 2147053251760205597536944246, 4624391265886402906359237747671158, 2205081626538094743804444793,
  931561085895931068537, 1876253951176885790155210873, 894667566962194776185, 2147053270207006845817585785, 1023794801866440704121, 1023794735895764009081, 894667540573936681081, 2205081774112064925696262265,
  4502697137092334265712375148576890, 1876253849719824171069866106, 4502697175777886706448194366079098, 1876253997293794352932323450, 894667571360262258810, 2147053307100494993257660538, 1023794775478195191930, 2147053177973286477303382138]

/-- A modulus under which all codes of the dictionary are distinct (used only in proofs). -/
def spanishModulus : Nat := 209745

end KC.Bip39.DictData
