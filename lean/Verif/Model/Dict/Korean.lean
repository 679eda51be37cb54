/-
Generated from bip39/src/dicts/bip39_korean.txt.
-/
namespace KC.Bip39.DictData

set_option maxRecDepth 100000 in
/-- bip39/src/dicts/bip39_korean.txt: the 2048 words in order, each as the number whose base 2^21 digits, least
significant first, are the code points of the word. -/
def koreanCodes : List Nat := [
  87429556364671546410523431168, 87719698672059526252756734208, 87487584748672825185873694976, 87816412737628700984779739392, 87429556475352024046920274176, 385795314780875471153487032002855741427968, 87719698625942688058715410688, 87816412571608026311626330368,
  87816412571608035107719352576, 87719698672059561437128823040, 378904592226340114457385594657080009036032, 87564956167148897698859454720, 181203131637016353583727026766876928, 87739041503620148373726695680, 87816412571608048301858885888, 87816412608501536449277989120,
  87429556383118343260791116032, 87429556429235203445064995072, 86210958289950511683594096896, 86056215794263211186086482176, 183353068989283662898247490366083328, 86307672318626207064291021056, 184002106057914973134494000509620480, 184164365257372961712665421903040768,
  184002106057915000804610111073947904, 183474763330848851035111399633195264, 184164365605543514751347884711481600, 86443072010423063124044157184, 183353068892569680339443080268615936, 184164365605543597761696216404463872, 183353068873226784215295866152423680, 86443071945859494050432815360,
  86210958271503833580582211840, 809963444430154110498192460470880885153445449984, 86056215794263277156784148736, 184164365334744214168054465642369280, 380180650980597744704388913471573058392320, 183961541161336352774780347633111296, 184164365257372878702391857000747264, 86210958216163623349686112512,
  797296614096536052750445617129498022210013499648, 183474763446905637484470198647918848, 183353069124683419258764982707294464, 86056215766593183036452376832, 809963444260012764778446399525830211849783611648, 380180651467375575192019780291862420525312, 795155741281418358669951314657942450075307348224, 86423729234202774379272605952,
  86152929859832469480993198336, 86210958299173971681379094784, 86443072047316626038253949184, 181284261314116521929438312869662976, 181284261314116402025610629850599680, 87816412571608026311628427520, 87564956056468415664418197760, 87487584785566344119620473088,
  87816412608501523255140552960, 87487584933140305505389908224, 1691133569030452585412552095069665706488491192415686912, 87564956185595632976484372736, 87429556318554734604769562880, 87564956121032037514593964288, 87777727129847820905372193024, 87719698625942736437235421440,
  184164365334744214167988494953091328, 184164365257372851032200979654119680, 183637022859134533421253440588222720, 183637022685049243066862949994860800, 86210958299173896914596794624, 183353069124683483822294473908424960, 183961541509507071834084707045216512, 86056215766593161046228209920,
  86210958336067437838574031104, 384774466868816329645487879486536677331200, 87719698690506314306941882624, 87564956121032037514598158592, 86075558662717290668162552064, 86230301001607284131325022464, 183353069124683354695103550131802368, 183474763485591245265337083936903424,
  183353068950598119680945280667095296, 184164365605543570091580105852719360, 183961541548192679615008766930456832, 184164365334744214168019281282863360, 183474763485591365169173563048988928, 86191615375379673172339069184, 86210958188493507239134368000, 86443071945859516040677953792,
  183353068989283709015182441443234048, 1698616459019239441800737370311389742483303768782803200, 86443072010423120298661384448, 795155741281419048271607039412696443273019920640, 184164365373429831172372552623329536, 86307672355519769978513395968, 184164365276715774826574255501611264, 86152929859832469481005781248,
  86307672364743142015368171776, 183637022607678036728461633882427648, 86443072074986724556644815104, 184164365296058643280640543425564928, 183961541238707752804069204503302400, 87429556383118290484247662848, 87487584748672829583934886144, 87487584748672838380027908352,
  87487584748672855972213952768, 87429556383118330066666262784, 87429556327778106641630630144, 87564956038021693580953784576, 87816412737628753761352552704, 87429556410788485759649190144, 87429556318554686226266329344, 180716353845214275157567789848334592,
  87816412691511832004429615360, 87739041485173355921522299136, 7470594181877747384843072714638674445851756456949846632707309703424, 384774467680112559048985222154440249708800, 87487584933140283515172032768, 380180651426812516181521454304835294728448, 87816412571608048301875663104, 87487584785566357313774686464,
  87739041503620152771789984000, 1669433175592398257404905697379388491921088333060509952, 87816412645395042188899913984, 87816412590054818763864281344, 183353069260083129502259563070492928, 183353069027969344466165437288157440, 380180650980597744704398136804027511345408, 86404386476429115359018094848,
  183474763330848694237861539909472512, 86075558496696668771571470592, 183353068989283662898322257173549312, 183474763582305264717704408248357120, 184002106328714273717897370758287616, 86443071945859516040682148096, 184164365412115383613064391379915008, 806930543933859944182928176023248828236742791424,
  86307672318626281831098487040, 86056215766593183036469154048, 183353069260083129502347524000715008, 184002106057914991581312841026638080, 183474763446905674377958346083799296, 183474763601648179288630880446189824, 184164365257372961712740188710506752, 86056215803486671183888257280,
  183353068892569726456360439163916544, 184164365412115503516900870492000512, 86210958345290831865669751040, 184164365257373017052972409839161600, 807644168290636474504942385566171287662024986880, 87429556383118316872530923776, 87564956185595641772587880704, 87816412571608048301877760256,
  87816412608501536449296863488, 87429556309331393354250850560, 183353068892569597329077156408463616, 86191615375379598405554671872, 184164365431458169056707580822294784, 183961541277393231457709981633089792, 183961541161336380444821691425624320, 183474763446905619037651358166552832,
  86443071991976301458167435520, 184002106328714356728170935662678272, 183961541548192679614991174750703872, 183961541238707697463762216590250240, 183637022607678036728386867098030336, 184164365373429729715280147227087104, 86210958188493507239140659456, 184164365257372961712740188712603904,
  86307672364743142015374463232, 385795314496921678673832070845025312837888, 797296614096536864046713706382195579957299646720, 180635224284170884037720120613671168, 87487584868576679257196990720, 87429556383118321270583726336, 87564956185595632976501149952, 87816412590054787977547092224,
  87429556466128687194462753024, 87816412571608048301884051712, 87429556493798807703073591552, 87816412645395042188908302592, 87487584831683243886336020736, 87487584868576732033755123968, 87816412626948227746456670464, 87719698672059543844970041600,
  87816412608501510061026185472, 87564956056468415664443363584, 87487584868576683655245598976, 87429556346224841919259742464, 87816412608501523255165718784, 87429556383118330066678845696, 87429556364671594789062316288, 87739041503620148373753958656,
  87816412608501545245398274304, 384519255255884805912899792193644312662272, 86056215683582746743856435456, 86443071945859428079762411776, 86075558515143324884361285888, 184002106367399946062337727703027968, 183637022859134533421240246467563776, 183474763717705011854687136024367360,
  86307672337072937943888302336, 86133587037495175416440164608, 184164365431458270513786792093683968, 183353068950598147351030604920525056, 86152929859832381520090239232, 86268986793855618141990686976, 86075558524366710115355595008, 86056215766593108269688951040,
  183474763717705057971560514437779712, 1691133569030452585412430400786129114490542071021048064, 86443071991976301458177921280, 86365700794861197412125380864, 86307672401636555396013363456, 87429556429235150668540416256, 87487584933140296709328343296, 87816412608501536449313640704,
  87429556493798816499177099520, 184164365373429895735902043839140096, 87564956001128161453092638976, 87816412590054748395141075200, 87564956167148858116478603520, 180472964871941932760651881007550720, 87739041439056517727501947136, 87777727111401046045366423808,
  87719698690506287918690078976, 794085306192450783061717049775460197455892582656, 384519255418143947342449028871661423694080, 183353069027969353689506687838327040, 86443072111880124743158862080, 86133586936038096205187649792, 86288329440948768739550040320, 86075558542813454189075632384,
  86210958234610292656642724096, 86307672309402835027473993984, 183474763485591263712063565485576448, 183474763601648179288556113676472576, 183353069202054708607514630554652928, 86133587065165304721154511104, 86443072038093179234646233344, 86056215794263241972449808640,
  1692256001574298617289666995540640068361857382710513920, 86210958188493485248926978304, 183474763446905591367588024179233024, 807644166589224315381464295954524972113150873856, 183353068892569698786222338388005120, 183474763446905674377936355872215296, 807644168290636474504845671436038491079853478144, 86443072056539958492727873792,
  1691133569030452585413241696899475908394287468206100736, 87487584748672816389822615808, 87487584831683164721515598080, 87719698561379066208587878656, 87816412737628700984821682432, 379500086246757241118051019278833105768704, 87816412691511845198594314496, 87429556383118312474507481344,
  87719698672059543844984721664, 87739041356046178191906181376, 87487584822459823470986400000, 87487584868576683655260279040, 87719698672059557039124254976, 378479239511077798593437079974160877228288, 87564956121032028718534496512, 87429556346224850715367444736,
  87739041356046195784092225792, 87487584822459841063172444416, 87487584868576701247446323456, 87487584877800073284301099264, 87429556346224855113413955840, 87487584868576705645492834560, 87719698690506327501112873216, 87487584822459871849498022144,
  87429556410788485759676453120, 184002106328714273717822603992764672, 184164365257372961712665421944983808, 86443072047316551271505203456, 184002105980543702232466436218949888, 86443072074986702566441619712, 7470594181093113035223078149471853212616824189251029284513950732544, 380180650980597996160876382895740960116993,
  183353068873226858002272160990630145, 809071415813201250926711352132522934429944910081, 385795314699745561939404522927355242483969, 183637022994534280558381303888613633, 380180650980597764047119016886939433308417, 184367189740265731470297756367589633, 380180651426812264725098548379372243390722, 380180651710765921804803458290499287257346,
  181284261449516130715954837020741890, 87564956121032015524353020162, 806930542742871497701778751069177728354370982146, 87564956167148928485185032450, 184002106096600617808893013670236418, 184164365257372915595805237629161730, 86075558496696611596950049026, 86443072038093179234608484610,
  86056215803486614009266835714, 86172272580712561189008183554, 806930543848789149628365409855664790003930632450, 86075558552036879002450792706, 183474763330848777248187881353122050, 86056215794263277156784148738, 183474763446905729718168576963121410, 1698616456878368668377123120680761177448325666482163970,
  86443072010423120298648801538, 183637022607677962941502931217682690, 87487584804013057407004446978, 87816412682288508346071781634, 87564956185595641772571103490, 86443072010423098308418343170, 86075558579706995113017217282, 183637022859134533421319411279597826,
  184164365412115383613064391365234946, 183474763446905628261098161795240194, 184164365257372915595880004421947650, 795155741026207273080903191842835603809747603714, 380180651426810755984762556216191272096002, 86075558616600496454584242434, 87816412645394985014295269634, 806395324943177435606022810361326026204133724418,
  87429556364671568400772763906, 87487584933140305505404588290, 183961541509507071834053920728027394, 86056215812709955259812811010, 86230301167627950008389603586, 86443071991976301458165338370, 183474763582305320057861862586323202, 184164365276715774826499488715116802,
  86443072047316551271480037634, 86307672254062677573115056386, 183961541161336361998152384504664322, 183474763717705011854775096944103682, 86307672318626281831098487042, 184002106057914991581312841026638082, 184164365257372961712740188710506754, 183474763485591328275742590238724354,
  86443072047316630436317237506, 793728494354348413962815038685410180404573376770, 183637022859134533421253440607097090, 184002106057914982357866037391659266, 87429556420011827010199359746, 87719698690506270326504034562, 86075558524366696921226547458, 1691133569030452585413241696976847077839275403694313730,
  183353068989283709015182441468399874, 87816412571608026311626330371, 809963444430154110499701200723862669216408670467, 87719698672059570233221845251, 796939802003215661475045386808155691306696315139, 87816412580831446726992728323, 86191615375379598405535797507, 183637022762420412511850885474685187,
  183353069027969316796031734521008387, 184083235618958299690737411769241859, 183474763582305347727977973133873411, 86133587037495188610552434947, 86365700794861197412096020739, 183961541238707697463762216571375875, 86152929878279138787912061187, 86307672383189811322274451715,
  183474763446905729718115800404988163, 184164365508829578309368474515804419, 183637022646363533828864076888936707, 86133586982154973981609824515, 183353068989283709015125266826006787, 86443071991976319050334605571, 380180650980597899446783143644480791384323, 184164365257372878702369866768191747,
  86075558561260251039305568515, 86288329542405913921472958723, 183961541548192698061788024999514371, 183474763446905637484452606461874435, 184164365257372961712722596507685123, 183474763679019330286874742208073987, 1692256001574297851653651821754029754018045571205435651, 797296614096536174444903239094860798114649870595,
  184164365257372961712740188693729539, 180797483502971731846585793053200643, 87835755384721838388191170819, 380180651710765921804803458281703196332291, 87739041319152672452261187843, 181284261391487728267927589916512515, 87429556327778080253338980611, 87816412590054761589244956931,
  87429556466128660806160617731, 87487584868576679257173922051, 384774467396158785912235608555443172937987, 87487584933140296709296886019, 87816412737628740567200436483, 87816412571608048301860983043, 87487584785566357313760006403, 87739041356046200182098891011,
  87816412691511884780973068547, 87429556318554747798902804739, 87564956121032050708727206147, 87816412691511893577066090755, 809963444600295131700893603297526835565645795587, 87429556309331393354234073347, 7437684100146972499780757285927064112055676644401001528140540940547, 807644168290636393376657968606103619792296481027,
  87816412626948306911268704515, 380180651183421918112148849692868092104963, 181203131888472924063569895116247299, 180675789200092179160775248385675523, 87429556346224815530970190083, 87429556429235163862663172355, 87816412571608021913596596483, 384774467233899373683247437985862010278147,
  87719698690506305510855151875, 87719698625942710048964743427, 87739041503620148373743472899, 181284261217402336456484276353896707, 181284261565573009398985626088378627, 87487584785566357313774686467, 87816412691511884780987748611, 87429556309331375762062708995,
  183961541161336334327948313010114819, 184002106367399946062337727692542211, 86133587019048431342720127235, 183637022994534271334938898298048771, 1691133569030452585413241696822104674385607313783263491, 806395324943177638428861563296985465265936404739, 809249821774789414780851225514727990346075083011, 183474763330848777248201075526209795,
  380180651426810755984716439386793313308932, 180472964929970455112489218909147398, 87564956167148858116440854790, 87816412571608008719440285958, 384774467193334863960917024977296610562310, 87487584804013070601141883142, 181284261314116521929464701146632454, 181284261449516093822479883741171974,
  87429556327778106641615950086, 796939801662933335118752045256310448873434779910, 87564956167148897698859454726, 87719698672059570233221845254, 181203131869130110949735828310462726, 87816412691511884780970971398, 384519255093625413026946096369422231933190, 1672052187775336966552041596235473977749272527454081286,
  87564956001128214229613023494, 87487584914693592218003837190, 797296612990618644211091376324571867039490117894, 86075558515143324884334022918, 184164365257372934042536117199180038, 183961541161336352774705580842422534, 86307672281732718916871917830, 86152929832162278603638182150,
  183353068911912511900003628587421958, 183637022994534271334952092420804870, 183961541238707697463762216571375878, 183353069027969399806380066213990662, 86230301167627963202512359686, 86443072047316542475370238214, 86443071945859458866060726534, 183961541509507062610712670182052102,
  86307672401636572988170047750, 379159804082659044693245597370087322423558, 1698616457770397710683144168959068344814031756133929222, 87487584804013057407004446982, 87564956001128165851103498502, 87429556364671568400758083846, 87487584785566335323527450886, 385795314131838383179446692288202683715846,
  87564956185595641772571103494, 87816412571608048301860983046, 86307672364743054054427463942, 86443072047316520485146071302, 86133587046718560647415599366, 86443072056539905716140380422, 86443071991976319050342994182, 87564956185595641772579492102,
  181284261314116568046307293247049990, 87564956185595654966721122566, 183961541161336361998077617709781254, 86443072074986667382040170758, 183474763330848721907977650469605638, 184164365373429775832140331494674694, 86191615476836765577741603078, 86423729234202774379285188870,
  183637022685049270737053827354071302, 184164365644229242436165598321840390, 183961541161336500348732937322107142, 87719698672059521854727000326, 180635224419570677291659789667930374, 87564956047245026035392057606, 87487584914693526247322947846, 87719698542932344125085716742,
  87739041485173395503940899078, 87816412590054787977538703622, 87719698690506314306948174086, 181284261314116475812630905168597254, 87739041503620152771789984006, 380180651426812516181622911419230929817862, 797296613501042194592499071519633778187159212294, 183353069027969335242762614107803910,
  86056215766593095075538931974, 380180651183421995483382858197100641915142, 183961541412792987818139513041981702, 183353068950598147351030604910039302, 86288329597746080171920724230, 86075558542813471781240705286, 86075558552036879002467569926, 378904592104644476922916398299953108095238,
  183637022607677990611579459380187398, 183353069027969372136316732224573702, 184083236005814617307703745378783494, 184164365412115503516878880259444998, 86443072028869846780189085958, 809071415983342353257464798088083541227221291270, 379244875201733669858222017113686351548678, 181122002153344104238715998102884614,
  87719698542932326532910158086, 87913126803197884512923029766, 87487584914693552635612500230, 87777726982273863917668143366, 87429556364671594789062316294, 87816412682288508346096947462, 384774467031075277646767627247731066540294, 180513529652463757447815017911030022,
  87429556346224863909492297990, 86307672254062602806334853382, 183353069221397447934372402501259526, 184002106057914954687749926827331846, 86133587019048444536870146310, 86152929859832394714229772550, 183353068873226950235939753007517958, 86230301167627963202539622662,
  86056215683582777530182013190, 183474763408219946693140632496509190, 183637022723734786284200344097394950, 380180650980597899446783143640082772136198, 183474763485591245265337083951583494, 806395324858107208958116547468853486067046682886, 183961541509507071834084707064090886, 183637022994534280558341721488888070,
  86152929878279156380125368582, 87429556429235150668548804870, 180635224322856611722493853763113222, 385114750047033536197954920606720661131526, 87564956121032028718534496518, 87429556364671594789076996358, 807644168290636393376735339969239389715449254150, 87719698625942710048989909254,
  87487584933140305505429754118, 87816412756075506631182389510, 87487584822459871849498022150, 183474763330848694237786773143949574, 183353069027969399806380066255933702, 86307672364743067248606843142, 183961541509507071834080309032259846, 379585157041310198429734031644015342915846,
  1666065877782455135964137236252859447447075009750634758, 806395324858106600485441581674910905154117046534, 181284261449516093822440301322572039, 181284261256088082587936112481669383, 180472964871941895867150539411165447, 87564956167148858116440854791, 87429556309331327383534309639, 378479239145994773898223157493445236363527,
  87719698506038847181556814087, 796939801407721519363287018868567123900330152199, 87816412571608065894044930311, 1692256003179951505948018947221430673788659179861315847, 86056215766593095075522154759, 86307672337072937943861039367, 86075558524366710115328332039, 380180651345681465740672019710319599292679,
  183637022607677962941410572240949511, 183637022607677972164782609095725319, 184164365334744186497885578519908615, 184164365605543588538306587363643655, 184164365257372961712665421903040775, 183353069124683465375550400190484743, 86443072056539905716131991815, 183474763330848823364995289068867847,
  183961541548192725731864553145241863, 806395324858106681615079996217028921918306128135, 1696745737815486629783454565624795961771186634465743111, 183474763446905572920808766059843847, 183637022607677935271312053862666503, 86152929795268808048405123335, 183353069027969344466165437271380231, 806395324858106600485441581674910830387284414727,
  184164365276715747156400970320056583, 183961541509507071834084707036827911, 806395325964024171284033966066972621041297264903, 183474763408220057373605074726555911, 184002106135286290153452117860290823, 86288329597746110958229524743, 807644168120494925960771460281481151769848320263, 809606633697965742492032395869525072202858238215,
  184083235618958299690794586373886215, 184164365257372934042606485943357703, 184326624688944652316670598316036359, 183961541509506970377049476238938375, 183474763446905628261098161793143047, 183474763582305320057936629360234759, 806395324858106600485441581674910887561889059079, 184002106057914954687824693590757639,
  184164365412115438953296612491792647, 183353069260083129502347523983937799, 183474763330848795694953945295229191, 183637022859134579538188391644401927, 86443072056539980482922680583, 183353068873226950236014519770943751, 86075558662717365434940657927, 184164365296058643280640543412982023,
  87816412626948227746431504647, 87739041392939639951006372103, 87564956001128165851103498503, 3548918059710122419313389225739396107079501982391657627128071, 806930542742871578830005139267085802365039677703, 183353068892569680339412293945135367, 184164365334744186497872384382472455, 183474763717705057971547320273080583,
  86152929859832381520065073415, 809071414622213007266911282480552440470530167047, 87777727111401046045337063687, 87777726982273855121556246791, 87487584914693583421919203591, 86075558496696594004772393223, 183353068989283764355339895777005831, 86443072056539905716140380423,
  86210958354514129135725449479, 183961541509506970376992301642682631, 86152929795268808048413511943, 86133587028271834165892092167, 86365700794861250188662542599, 183474763717705057971613290977038599, 86268986738515451891540824327, 183637022936505776653274845519286535,
  183474763601648179288613288251756807, 183353068950598147351100973645828359, 183353069260083175619190116080161031, 386220667739526605547208469364473860198663, 86404386467205743322157027591, 184164365373429729715205380430106887, 184164365412115383612989624585031943, 184164365373429785055437601558761735,
  183474763717705039524816440713548039, 378479239511076579995362358913045639467271, 86230301167627963202524942599, 86210958216163566175094051079, 184164365373429785055455193744806151, 183637022994534271334969684619432199, 183637022994534252888282785514524935, 380180651183421840740896394356600915104007,
  183474763601648179288630880441995527, 87487584831683164721490432263, 181203131753073084692739255460434183, 384519255134190290262504311247993716084999, 87719698506038847181573591303, 87719698672059543844959555847, 87816412571608035107736129799, 87487584748672864768309072135,
  181284261217402336456484276353896711, 87816412571608048301875663111, 87487584785566357313774686471, 87487584822459845461193789703, 87816412645395042188899913991, 806395325198389332491184279924219810459154387207, 87719698542932392503597338887, 86210958216163535388772667655,
  86056215766593095075538931975, 793728494269277822232677136940475917907586453767, 184002106328714356728157741521047815, 183961541509507071834058318774538503, 1691133569030452585412430400554015357124458502676287751, 86075558542813454189054660871, 86307672318626207064307798279, 86056215766593108269678465287,
  184164365334744186497885578536685831, 183474763717705057971560514427293959, 183637022994534280558324129292357895, 183474763427562916604299325812510983, 86056215766593183036469154055, 86443072056539980482939457799, 86307672401636630162791469319, 87487584914693513053193900295,
  1696745736923456821839227841485117785401456546921058567, 87719698506038838385491054855, 806930542742871578831513879630748081656610951431, 87487584868576679257199087879, 87487584868576683655245598983, 87487584748672855972226535687, 87816412571608035107746615559, 87874441047843034251644637447,
  87487584933140305505415074055, 809963445110718925470829685976570158857408483591, 87816412571608048301886148871, 87816412608501536449305252103, 87429556383118343260818379015, 1672052188845779031309396587919793372263245565222981895, 87487584933140318699554607367, 87429556309331384558166216967,
  87719698625942736437254295815, 386220666928230221401058642089038458130695, 86307672318626193870178750727, 183474763330848860258470242375700743, 86210958206940176546067910919, 184164365296058523376729297537470727, 86443071991976301458175824135, 184164365373429785055437601573441799,
  183353068950598119680927688495730951, 86094901411267520476989100295, 380180650980598054189389511387430351016199, 183637022994534326675184313576722695, 1691133568495234445436731550876142380115264939745087751, 380180650980597899446783143640082772136199, 86230301001607284131339702535, 86288329440948786331725598983,
  184245495050529971847958932081348871, 183474763330848749578036586443968775, 184002106057914954687767519013376263, 184245495282643784554199954753589511, 183474763330848795694896770717847815, 806395326559518759609074413717680820185498390791, 184164365276715830166749302040301831, 380010509918833164463530881640402757095687,
  87429556475352010852822683911, 87487584748672825185915638023, 87564956185595602190192349447, 380180650980599253444715682192348483162375, 180797483599685825085885431773401351, 180797483561000088177761652018516231, 87487584748672842778101682439, 87816412626948254134750417159,
  87564956185595619782378393863, 385795313969578912921936169850497281298695, 809249820243518682508498465769533127164709310727, 87816412571608035107761295623, 87816412682288508346111627527, 87564956157925525662046621959, 87816412691511884781012914439, 384774467680112501020425976859741242003719,
  87487584748672891156613304583, 184164365644229140979016018344022279, 183637022859134533421319411319443719, 1693752581570203132666275835998288038780335822267748615, 797296612565265685560092382424058657958073995527, 183637022607677916824633950892724487, 1691133568495234445436041948794875552389499127611789576, 86075558542813471781223928072,
  86443071991976319050334605576, 87487584785566304537199776009, 385114749397996448223979144439150938165513, 181284261430173280708615030620295433, 87816412590054748395103326473, 87719698506038847181556814089, 87816412571608017515533308169, 87739041503620121985447629065,
  385795314780875239039637432278083696595209, 87564956121032015524353020169, 87816412571608026311626330377, 87816412571608035107719352585, 807644167354860249427527431073569749127072321801, 87564956038021680386799571209, 87719698672059561437128823049, 87564956185595632976475984137,
  87739041356046195784050282761, 87816412682288508346069684489, 87564956130255409551440351497, 87816412571608048301858885897, 87487584785566357313757909257, 87487584933140309903434322185, 87487584822459854257270034697, 380180650980599176073463226904459771646217,
  87816412571608065894044930313, 181284261314116521929508681611743497, 87564956167148928485185032457, 183637022994534169877859687018270985, 3497916570321546956198849945320752793447772700374554994807049, 184002106057914991581238074219172105, 183353068892569726456285672356450569, 183961541548192642721520619498770697,
  183474763717705057971578106596561161, 183353068873226904119097160892420361, 809963444089872027530872391169198860250730467593, 183353069124683354695138734491308297, 184002106367399982955891845792534793, 183637022878477392652000468207145225, 183474763485591328275720599989391625, 183474763504934012262368141050384649,
  183961541509506970377049476238938377, 86075558524366784882119020809, 86385043552634874024553353481, 797296612565265523300564096594098572123502022921, 184164365257372934042624078129402121, 183353069260083129502347523983937801, 184002106057914991581312841009860873, 183474763717705057971635281201205513,
  86056215794263299147016704265, 183961541238707697463836983362064649, 86133587065165379487907451145, 86307672383189886089065140489, 86075558644270621361231106313, 86288329597746168132834169097, 183961541412793061605203768793633033, 184164365431458335077479010980073737,
  87429556364671577196851106057, 183637022607677916824537193829634313, 1693752582819045374206851511521516215892554391025094921, 183353068873226784215317856387076361, 184164365373429785055512368338964745, 183637022859134533421328207372620041, 1698616458127210399495649312990907366076521385700626697, 183474763330848777248209871587774729,
  183474763408220029703546138768969993, 183474763717705039524891207493751049, 183637022994534271335026859213590793, 183637022781763391646456382448734473, 87739041319152681248360501513, 87487584914693535043407581449, 87816412626948254134716862729, 87487584933140283515163644169,
  181203131753073232266713835361014025, 87816412590054787977530315017, 87564956121032037514593964297, 87429556346224855113380401417, 87719698542932366115309883657, 87429556383118347658846015753, 87564956167148915291053887753, 86056215766593095075530543369,
  86385043607975018284760174857, 86133586936038096205158289673, 183637022859134533421253440588222729, 86075558561260198262755823881, 184164365276715747156383378142400777, 86307672337072951138008961289, 183474763601648179288556113647112457, 184164365257372961712665421911429385,
  183474763408220057373587482548900105, 183353068892569744903029746074390793, 797296612565266212902742077413606474800150089993, 380180651467375652563170778478549602930953, 183637022607677926047940017016279305, 1698616456699963302283831543652303691541124273785540873, 184164365373429785055455193740611849, 183474763582305320057879454763979017,
  86056215766593125861856121097, 1692256001574298617288855699156494103001956713660158217, 86443072074986667382035976457, 184164365257372998606171161516577033, 86443072038093218817035473161, 184164365412115355942948280807198985, 184164365257372878702391857009135881, 184164365373429785055512368345256201,
  183637022723734850847861776666595593, 183474763717705057971635281209594121, 184164365257372961712740188702118153, 183353068950598147351118565831872777, 183637022994534280558398896074658057, 183961541161336500348732937317912841, 87719698672059521854720708873, 180472964871942080334608868703211785,
  87816412571608035107729838345, 87564956130255409551450837257, 3562256902768540319684077914518810326462937887810044676804873, 87429556309331384558149439753, 86133587083612048794836799753, 1666065877782455135964137236252859548904149822935666953, 86075558616600496454584242441, 180797483502971731846585793067880713,
  806395325198389332491126251595558697934235111689, 87719698672059521854727000329, 181284261217402336456440295888785673, 87487584804013057407019127049, 87429556475352024046937051401, 87816412571608021913596596489, 87487584868576679257188602121, 87564956038021680386816348425,
  87429556383118330066668359945, 180838048206121999707153038779093257, 87816412682288508346086461705, 87487584877800073284275933449, 87719698672059570233238622473, 380180651710766250632746297336900261777673, 385795314496921794730821434344654661226761, 87564956185595646170632294665,
  87816412691511906771220304137, 87816412626948306911283384585, 183961541161336361998064423574442249, 86210958216163535388772667657, 184083235773700850718256936282755337, 806395324858106681615079996217028904326136860937, 183637022994534169877859687035048201, 86172272580712508412466827529,
  183961541548192615051386916765176073, 184164365605543514751330292542214409, 183353069027969344466147845102113033, 183353068989283736685223785221067017, 183637022994534252888208018728030473, 183637022994534280558324129292357897, 184002106135286290153434525691023625, 86075558662717290668166746377,
  797296614096536052750716416577655246228543246601, 86443072038093214418997350665, 380180651467375575192019780291862437302537, 86443072047316608446084681993, 183474763446905729718190567212454153, 181284261217402410243407794640261385, 87816412756075511029212123401, 87487584785566304537227038985,
  87487584804013057407029612809, 87487584748672829583947469065, 807644167695142129570596721335190091560950698249, 806395325198389332491513107765601672095743349001, 87487584804013074999215657225, 87816412626948254134735737097, 87429556309331344975747617033, 87816412571608035107746615561,
  87429556346224841919259742473, 87564956121032028718519816457, 180797483483628946402907419265995017, 87739041356046195784077545737, 87719698561379105790991798537, 87816412626948276124968292617, 87739041503620148373753958665, 87487584868576705645478154505,
  87739041503620152771800469769, 87564956121032050708752371977, 87777726982273881509854187785, 87564956185595668160875335945, 87429556309331393354259239177, 809963444174942335308900639079209318168668410121, 181284261217402419466858996336431369, 86172272580712495218337779977,
  86210958271503767609911808265, 86152929859832381520090239241, 183474763330848694237786773129269513, 86133587019048444536870146313, 86307672337072951138027835657, 1692256001574297851653530127431807554239009662210937097, 86365700794861197412123283721, 806395324858106681615079996217028917520286880009,
  184164365373429794278827230614262025, 184002106367400010625972772012036361, 86056215794263290350950945033, 87719698690506274724550545673, 87564956121032015524390768905, 180797483483628927956163345566929161, 87816412737628731771143065865, 180635224419570631174839187833622793,
  181284261488201867624109403138953481, 796939802003216310512152703523258694658139623689, 795155741961980902009502024337998362753892356361, 796939801407721559928106226153461249711393476873, 181203131849787187155463707574669577, 183353068950598156574433428111364361, 183961541509507127174316928203231497, 183474763504934012262350548902088969,
  86443071945859498448517075209, 183353068892569597329151923218026761, 86443071991976376224976998665, 86307672318626281831119458569, 793728494524489597423361641743339871449278058761, 183474763717705067195007318093730057, 87429556309331314189436719369, 87487584748672816389822615817,
  87564956074915128951842017545, 380180651548506877089513481582396015907081, 795155741961980902009540709807428644688304804105, 87429556318554699420431028489, 181203131811101671608207239687442697, 380010510446175814158511206155576760340745, 87487584933140283515197198601, 180797483502971694953128431999521033,
  87487584785566344119660318985, 87564956038021680386841514249, 385795314172403221729563146970164021432585, 797296613586109784524294123400220680654789021961, 797296612735403867221928621965563816155992297737, 87564956130255409551482294537, 87487584933140305505429754121, 87564956185595641772610949385,
  87429556309331366965994852617, 87816412571608048301900828937, 87564956038021693580981047561, 87719698542932366115343438089, 87816412691511884781012914441, 87487584914693565829766713609, 87739041503620152771815149833, 87816412608501545245412954377,
  87739041319152738422998700297, 87719698542932392503622504713, 86307672254062589612210000137, 86443071945859428079777091849, 184164365257372878702303896112468233, 184164365296058523376716103412617481, 809071415387848535663176890109287212385835159817, 183637022859134533421240246482243849,
  184164365257372924819164080386347273, 86056215766593095075564097801, 1693752580856579881807438007130798946521650235338395913, 86210958317620627794200367369, 183353068873226931789182485173113097, 183961541412793061605115807905353993, 86210958188493432472373039369, 86385043506517939073530728713,
  183961541277393231457709981656158473, 183474763582305320057861862611489033, 183637022607677972164782609137668361, 86443072010423045531900055817, 86056215766593108269703631113, 86152929832162278603680125193, 184164365489486709855302186633793801, 809071415387848535663041490482053991370391032073,
  184164365334744232614745762835730697, 86152929878279138787954004233, 86230301167627963202554302729, 183961541161336334327979099360858377, 86075558515143355670701543689, 183353068989283709015125266867949833, 86191615421496476182037664009, 184164365257372906372450793002373385,
  86307672337072968730228560137, 184002106328714356728188527871791369, 86443072028869807197795651849, 184164365257372961712683014131028233, 184164365334744214168019281312223497, 1691133569030452585412714354559265974784552733796995337, 183474763408220075820349148478050569, 86152929878279156380140048649,
  184083235696329635156439602871406857, 86075558644270564186668405001, 86075558653493936223523180809, 183961541238707752804012029928018185, 183474763446905738941505429487751433, 86443071991976354234748637449, 809071415813201007536538824629975941052717076745, 86056215766593161046261764361,
  184164365257372961712718198503117065, 184164365334744214168054465684312329, 183474763330848851035164176233271561, 797296613501042721935322851808759511488328110346, 87719698672059543844984721674, 87777726945380375770263720202, 181284261410830467594772167731974411, 1666065876533617998662594512143338185667203570803413259,
  385795314780875239039729665985258104819979, 87564956167148862514487365899, 385795314496921678673905857838912314020107, 1671303899650654026120990992914619131925275331090452747, 180472965046027398359128663989948683, 378819521715739595627378888037278253322507, 181284261410830504488313091709210891, 378479239389383631113723764954673396584715,
  87429556493798807703048425739, 87719698690506327501070930187, 181203131888472739596155546289312011, 793728494609557309049420887467374519617731957003, 87719698672059596621500911883, 87739041392939714717794963723, 87487584914693592218003837195, 86443071945859428079735148811,
  184164365412115411283092540997243147, 86307672337072937943861039371, 86075558496696594004764004619, 184164365373429729715205380417523979, 86230301001607266539126395147, 86075558515143338078473556235, 184164365373429748161949454127075595, 184164365412115383612989624572449035,
  184164365257372915595805237629161739, 86307672318626207064291021067, 86307672364743067248564900107, 3558333717177077391808331769770153288367121745615546539315467, 807644167269789373741952909830352785480376914187, 86443072028869842382125797643, 184083235696329635156474787201552651, 183353068989283709015164849244606731,
  183637022607677926048019181845090571, 183474763582305320057958619592790283, 87487584933140305505389908235, 87816412608501536449280086283, 86307672337072937943863136523, 183961541238707651346919624485638411, 87487584748672816389784867083, 87487584748672829583924400395,
  87816412645395020198654775563, 183474763330848694237773578966667531, 183353069124683354695072763797836043, 183353069027969372136250761514324235, 86307672337072937943865233675, 183961541238707697463749022436036875, 183961541412793061605115807867605259, 794798929273171276969336070485616936329555218699,
  183961541277393231457784748409098507, 183353068989283709015182441434845451, 183637022607677962941485339035832587, 379585157406393590638341776770565211689227, 86307672364743142015359783179, 86056215840380159331294777611, 87719698625942674864584265995, 385795314496921678673813624100951588606219,
  87487584914693535043407581451, 809071414281930437523424208324342883910424727819, 806930544274141986586802378518211333388219977995, 793728493333497621799478817657547889616814608651, 380180651467377006561020306726464071405835, 86443071964306185347592622347, 183353068950598064340695467348201739, 183474763485591245265319491746664715,
  86133587037495188610560823563, 183637022859134478081038811645612299, 183474763679019376403677751885697291, 183961541509507071834084707045216523, 184083236005814663424528745272185099, 86056215738923044935663882507, 86307672309402892202049278219, 184164365412115466623395130878464267,
  86152929878279195962525094155, 797296613501042721935148766490735004887178809611, 184164365257372906372507967573463307, 380180651183421918112194966553052365984011, 378904592591422404124566717439188257476875, 181284261449516130715937244845183243, 384774467031075567788927441266187513630987, 183474763717705067194932551275778315,
  87487584785566304537212358923, 386220666968794982579894971239457158598923, 87487584831683164721486237963, 87487584868576652868905341195, 87487584877800024905760117003, 386220666968794982579830407648393314701579, 87622984477363156198918983947, 809963444174942335308997353181671910679351660811,
  87487584914693526247318753547, 87487584822459814674864017675, 87719698672059543844955361547, 87777726982273855121560441099, 87816412608501523255151038731, 87816412654618392235517939979, 87487584933140305505400393995, 380180651710765921804840351809433044521227,
  806930543933859944184050060207644726145560088843, 809963444174942335308610496845608319019305144587, 87816412580831446727005311243, 86056215766593095075534737675, 86443072028869776411440713995, 183637022607678073621861820371308811, 183637022723734786284182751896670475, 86307672254062602806320173323,
  183353069221397420264256291922252043, 86443071945859441273887265035, 183353068873226830332103273880752395, 183637022685049243066862949999055115, 86152929832162278603650765067, 183353069027969372136263955662246155, 184002106328714356728170935656386827, 86075558598153686410179121419,
  806930544444283494564219814385744520401102311691, 183474763717705057971560514423099659, 184164365257372961712665421915623691, 86307672364743067248577483019, 183637022859134607208229735430623499, 183637022994534326675184313562042635, 184002105980543803689506065033990411, 86385043672538635736887333131,
  86443071945859458866073309451, 86075558552036843818091286795, 86268986710845300596608602379, 797296614096536661223004526100097848535513305355, 184164365334744214168019281282863371, 86056215812709986046134194443, 183637022955848709670905809012265227, 86172272608382677299585093899,
  86133587019048501711460110603, 183353069124683354695160724736446731, 183961541161336352774780347645694219, 184164365257372934042624078141985035, 184164365296058578717036285442134283, 183353068989283764355414662571888907, 184164365508829522969211020190421259, 797296614096536174445057981599771470649024844043,
  86056215849603531368157942027, 184164365296058643280640543425564939, 183474763485591365169230737653633291, 86230301167628037969315631371, 380180651183422092197365417129054084010251, 184164365257372915595901994664988939, 184002106367400010626051936834556171, 87719698506038825191338938635,
  87719698672059521854724903179, 87816412571608026311641010443, 87487584748672855972213952779, 87816412571608035107734032651, 87487584785566344119633056011, 87564956121032028718507233547, 87739041485173395503938801931, 809963444089871865272833503074254611999549821195,
  87429556327778106641630630155, 87487584785566357313772589323, 87564956038021693580953784587, 87816412608501536449292669195, 378564309859419175993839209718908748566795, 183637022607677926047988395534192907, 87564956167148858116457632011, 87429556309331336179644109067,
  7442620603618649913495509576390348954724921842475422658632766984459, 380180651467377006561029530063316562481419, 181284261449516167609438586410111243, 807644166589224477642075780278089683464907395339, 87487584914693543839508992267, 87739041503620139577650450699, 87719698561379105790981312779, 87564956130255409551457128715,
  87487584785566357313774686475, 87429556493798807703065202955, 378819521959128762327833976576169654358283, 180472964929970381325578894785384715, 1693752580142955865310313372608781715219986583061008651, 180716353845214339721251212668965131, 184164365257372934042536117215957259, 379585157203569726715600885196007034327307,
  184204930076580154373048874165080331, 806930544444283494564084414638607449712410759435, 183961541316078894578866262640693515, 1693752582819044863783990732079030813076110814516089099, 184164365412115503516826103701311755, 807644168120495291044144325845528050972630192395, 1691133571884948396177917286402575605064981194284732683, 86075558662717308260352790795,
  809071415983342190996756599855747019352360096011, 796939801833074559144175884056922415246245630219, 87487584933140305505406685451, 184164365334744186497885578538782987, 183474763408220057373587482559385867, 86443072010423120298667675915, 86056215794263299147035578635, 1692256002644734131603670315554561021021009086796271883,
  86443072056539905716152963339, 809249821944930719937344847857984434473009156363, 87429556429235150668529930507, 385795314496921678673832070845025312837899, 806930543423436515497390128934845415752120406283, 87564956121032050708748177675, 87719698690506327501093998859, 1672052185991277690952202054843695051812452265149600011,
  183637022607677972164782609118793995, 183474763485591282158807639180448011, 183353069027969409029752103091835147, 87719698672059521854735388939, 87564956185595641772594172171, 87719698672059574631293522187, 87816412608501545245396177163, 86443071945859516040690536715,
  86133587019048519303658737931, 86133587037495263377368289547, 87487584748672855972226535691, 87487584785566344119645638923, 87816412737628731771132580107, 380180651710765921804858798549108722241803, 87816412608501536449305252107, 384519255620967946664872493815893292224779,
  87487584804013123377727279371, 184164365412115383612989624599712011, 184164365373429785055437601573441803, 183474763330848758801391031112700171, 183474763408220057373587482567774475, 184164365276715830166731709854257419, 183474763330848777248152697008296203, 183961541509507071834084707064090891,
  1696745738172298552959660582464401451249469852424868107, 806930544274142067714777310394670693088529223947, 183961541509507071834133085575713035, 87429556309331322985517158667, 86210958188493432472360456459, 86075558542813454189067243787, 86133587019048444536872243467, 797296613501042721935322851864099668942695436555,
  183474763717705057971560514439876875, 184164365257372961712665421932400907, 380010510162221035194695687283253302006027, 184002106328714273717840196166226187, 809249820583801373946675275316430127880774619403, 86152929832162296195853586699, 807644168290636474504845671436038455895473000715, 180635224419570677291699372101210379,
  87487584748672847176139804939, 87739041356046178191897792779, 87816412608501523255172010251, 87487584877800073284292710667, 87719698542932392503614116107, 87739041374492970644118966539, 809071414281930356392064282492757122009261936907, 380180651710765921804803458277305183375627,
  87739041356046169395806867723, 87816412626948254134744125707, 87564956121032015524388671755, 87487584748672855972234924299, 87429556346224855113407664395, 384774467436723682490855968374649199268107, 87429556309331393354267627787, 87816412580831446727028379915,
  87816412626948306911302258955, 183474763582305264717616447337009419, 184164365257372934042536117234831627, 184002106367399982955825875130519819, 86152929878279125593808179467, 184164365276715830166731709864743179, 183353068989283709015160451235844363, 86288329487065681700382052619,
  183474763330848758801443807681319179, 184164365334744186497938355115790603, 183353069260083129502325533789131019, 183353068873226885672388271592706315, 86307672364743120025160782091, 87487584804013048610949173515, 87487584822459801480751747339, 87487584868576679257211670795,
  87429556383118321270598406411, 87429556493798794508948738315, 87719698690506305510878220555, 180797483483628863392567883678617867, 87429556420011827010203554059, 87487584877800073284299002123, 87429556309331393354271822091, 87777726982273815539171201291,
  87777727019167303686590304523, 87719698561379066208587878667, 87719698579825810282297430283, 87564956001128165851143344395, 180797483483628771158812330760868107, 87816412645394985014320435467, 378904592104646101720094179922212863086859, 378819521877998737056835890959742475964683,
  806395325198389332491184279942666501756330971403, 87719698672059543844984721675, 87487584933140283515197198603, 379159804244919810919935722182216775635211, 87564956056468415664458043659, 87564956121032019922441474315, 87564956001128187841375899915, 87816412571608035107761295627,
  87816412608501523255180398859, 87564956167148888902808375563, 181284261217402354903223952042103051, 87816412682288508346111627531, 87777727065284212249375805707, 87564956130255409551482294539, 379159803879836302654679878426954257404171, 87429556493798803305043857675,
  87487584785566357313799852299, 87816412691511884781012914443, 807644166589224274818037772200726994571317219595, 87564956167148919689133953291, 87487584822459871849498022155, 183474763330848694237786773143949579, 183353068989283662898247490408026379, 184164365412115355942873514050064651,
  86307672254062602806349533451, 183474763679019330286799975459328267, 86443071945859441273916625163, 86210958216163548582937366795, 86385043552634799257804607755, 183637022859134533421253440621777163, 184164365276715747156383378175955211, 86249643897731448937656619275,
  183474763446905674377883579318276363, 183474763601648179288556113680666891, 86075558607377058447063257355, 184164365412115466623337956307374347, 183474763408220075820331556292006155, 86152929878279138787954004235, 809606632592047928304253968467515272846083363083, 86056215849603456601396613387,
  184164365373429895735902043845431563, 184002106135286142579499528225820939, 86443071945859458866102669579, 183474763330848721907920475894321419, 86075558524366727707556319499, 184164365605543514751347884753424651, 183474763330848758801408623313424651, 183474763485591263712081157675815179,
  86307672318626224656519008523, 184164365257372934042566903566700811, 184164365276715747156400970361999627, 183474763485591282158825231385366795, 807644168290636474504845671436038455895485583627, 183637022878477392651965283876999435, 184164365334744214168019281312223499, 184164365412115466623355548493418763,
  807644168290636474504865014258375661999135658251, 183353069260083166395778496840339723, 86152929878279156380140048651, 86443072074986667382069530891, 184164365276715830166749302054981899, 809963445110718925469669116461094440819759255819, 183961541509506970377027486048325899, 86307672309402887804036321547,
  86075558524366767289974919435, 183353068989283709015164849286549771, 184083235618958299690794586415829259, 86056215766593165444308275467, 183637022859134561091426725790748939, 86443072028869846780214251787, 183474763601648179288613288285311243, 184164365257372961712722596549628171,
  183353068873226950235996927626842379, 386220667415008032545784161258135426699532, 87429556364671546410523431180, 87429556475352010852780740876, 87816412645394985014278492428, 87816412571608017515533308172, 385795314780875374439375345981133584077068, 87429556493798794508908892428,
  87487584933140296709294788876, 87487584804013096989420949772, 87487584877800073284259156236, 87564956157925525662004678924, 378819521512915422219526718117604912795916, 87816412608501536449277989132, 809071415983342353257464798078860221966897385740, 87487584748672891156571361548,
  86056215683582746743829172492, 183474763446905591367522053443817740, 184164365334744186497872384380375308, 184002106057914991581224880079638796, 184164365489486709855288992452317452, 1693752579250925036524259316057908793667351198363029772, 183961541412793061605115807863410956, 86443071973529557384439009548,
  183353069221397457157744439328772364, 86443072074986649789841543436, 184083235773700804601427538317676812, 183474763330848703461211586514915596, 809071414281930883734965434006667974311961170188, 86443072028869842382125797644, 184083235773700850718322906963644684, 380180651183421840740905617706647524741388,
  86443072056539962890736636172, 183474763504934012262368141050384652, 183474763582305264717704408231579916, 806930542742871213746767673201144981632447418636, 86075558542813528955828572428, 86191615421496533356600365324, 86404386365748708091348652300, 86056215738923066925888049420,
  183474763446905628261098161793143052, 86210958243833739460250439948, 86443072001199748261794025740, 86443072010423120298648801548, 86056215766593183036452376844, 86210958271503855570814767372, 183353069260083129502347523983937804, 806930544444283494564103757507061590767108624652,
  183474763717705057971635281201205516, 183961541238707697463836983362064652, 86056215812710043220726255884, 1696745737815485694006661579232199227670498506394571020, 87816412737628700984781836556, 380180651183423349481112482617332076646668, 87487584748672855972201369868, 87816412580831407144576225548,
  806930543253294845258800267366360439494394515724, 87816412608501536449280086284, 181284261217402345679865109287014668, 87487584748672891156573458700, 87429556309331393354234073356, 809963445110718925470965085751377372044922458380, 87777726982273815539137646860, 181284261314116475812578128602075404,
  87777727019167303686556750092, 87429556364671555206624841996, 87487584785566326527440720140, 378904592104646101720094179922212829532428, 87487584785566335323533742348, 87564956121032037514593964300, 379159804082660534090759252300776383451404, 87429556429235212241166405900,
  183353069221397420264243097778524428, 797296614096536864046713706299185143664661762316, 184164365334744186497872384388763916, 184164365489486709855288992460706060, 184164365605543588538293393232498956, 86075558496696594004772393228, 184164365412115355942873514016510220, 86443071945859441273883070732,
  183637022607677935271294461685010700, 379159804001529386935844248531528681787660, 184164365257372906372433200782774540, 183474763582305320057861862577934604, 183474763330848758801391031093825804, 86307672318626207064299409676, 86152929832162278603646570764, 86443072028869789605576053004,
  184164365489486709855302186600239372, 86056215794263224380234404108, 184164365276715774826499488706728204, 86307672364743067248573288716, 183637022685049289183723134268739852, 86152929878279138787920449804, 184164365412115503516826103692923148, 86172272728286461002134851852,
  86307672420083299469701943564, 86075558524366727707522765068, 184164365257372906372450792968818956, 183474763330848758801408623279870220, 183353068911912511900021220781854988, 86056215812709986046130000140, 183961541238707586783350550880588044, 86307672337073003914567094540,
  183961541548192679615043951298351372, 183474763601648179288608890205245708, 183961541238707697463814993137897740, 86056215812710021230502088972, 183474763679019330286857150030418188, 86443072028869846780180697356, 183353069027969418253181314536575244, 806395324858106681615079996217028970296826138892,
  809963444089871865271537533516493988462575227148, 86210958216163623349694501132, 809963444089871865271788990133090691515187990796, 86443071991976376224947638540, 183637022607677962941485339040026892, 183474763446905628261098161801531660, 183474763582305320057936629368623372, 793906899550300643773754515014186976748427546892,
  86210958253057111497113604364, 86307672318626281831090098444, 86443072010423120298657190156, 184164365257372934042624078137790732, 184164365334744186497960345318985996, 86210958289950599644532707596, 183474763601648179288630880437801228, 184164365257372961712740188702118156,
  86443072056539980482931069196, 86443072074986724556640620812, 797296614096536052750503645688743360889519870220, 87816412645394971820149444876, 385795314131838325150924340398088194625804, 180797483483628771158812330729410828, 87429556383118316872522535180, 87564956001128183443297931532,
  87739041356046178191874724108, 807644166589224274818269885792072275923117805836, 87487584748672864768302780684, 87564956185595641772579492108, 87429556309331366965963395340, 180797483444943255611648221814722828, 87564956121032050708735594764, 87719698625942736437237518604,
  87487584748672895554628358412, 87429556309331314189411553548, 87487584785566304537216553228, 87719698672059521854727000332, 87816412756075436262413046028, 87816412626948254134725251340, 180959742760458159766285803126264076, 87816412571608035107736129804,
  87487584785566344119635153164, 380180651710766250632737073960465360490764, 87564956038021693580955881740, 87816412608501536449294766348, 87429556493798807703065202956, 1693752579250925206666051248486422178745231095583740172, 86075558607377058447038091532, 184002106057914991581255666421993740,
  183961541509507071834084707053605132, 86288329440948843506319757580, 86210958234610367423412441356, 86385043552634874024570130700, 380180651183421995483382858285061572137228, 1692256004071982249666117988662414387134836672049451276, 184164365412115466623412723072897292, 184002105980543803689580831828873484,
  87429556346224841919251353868, 87487584933140305505410879756, 806395325198389332491184279951889851802938511628, 87719698672059543844970041612, 87564956001128179045268197644, 181284261256087999577614169095016716, 87429556346224828725120209164, 87487584868576679257199087884,
  87487584933140283515182518540, 87816412571608026311653593356, 87487584804013079397262168332, 87429556493798794508936155404, 87487584933140305505415074060, 87564956185595641772596269324, 87816412571608048301886148876, 378479239632772314243703433684907202711820,
  87429556318554756595020992780, 86443072010423045531885375756, 380180651183421918112047392543288103801100, 86443071945859458866087989516, 380095580469997399959644891086568940376332, 183474763330848694237861539919958284, 7470594187370211403309986502226754644646474208264033025404279197964, 183353069124683354695160724751126796,
  183474763446905591367610014401302796, 183474763330848721907977650484285708, 183353069027969316796106501338960140, 183474763330848758801465797903388940, 86307672318626281831108972812, 86152929832162353370456133900, 3559118350030124883520220625627668302003211560600810530279692, 183474763582305347728052739951825164,
  184164365257372952489368151866216716, 86288329542405935911732777228, 795869364872559441725048188816083625709041357068, 183353068950598119680914494366683404, 86443072028869776411465879820, 809071415387848292274106903738214623086504841484, 86056215683582834704797143308, 86133586936038170971978338572,
  183474763601648077831538475064627468, 184164365257372934042624078167150860, 86152929832162353370466619660, 87429556309331314189436719372, 87739041319152659258161500428, 87816412626948227746471350540, 380180651710765863776530137462972096712972, 87719698672059521854752166156,
  87739041485173355921547464972, 87816412737628700984821682444, 807644168290636028293265760228942794163799200012, 384774466868816174902982968796410160353548, 87816412571608026311668273420, 87816412691511862790780358924, 87429556493798794508950835468, 87429556364671594789076996364,
  180513529652463692884206361895768332, 87487584877800073284301099276, 87429556346224855113413955852, 87719698542932366115343438092, 87487584933140309903476265228, 87564956121032050708767052044, 183474763408220029703458177878593804, 184002106057914991581224880121581836,
  183474763601648179288542919541133580, 184164365257372961712652227805450508, 184002106328714273717822603992764684, 184164365412115383612989624614392076, 86210958234610292656646918412, 86288329487065628923828113676, 86443071991976301458190504204, 86056215803486596417122734348,
  183637022607678036728386867121099020, 183637022859134607208229735459983628, 184164365412115503516826103726477580, 184164365276715830166731709868937484, 183474763582305320057879454797533452, 184164365373429794278827230628942092, 86133587019048462129070870796, 183353068873226894895760308451676428,
  183474763330848721907960058312921356, 183474763330848795694936353151127820, 184164365508829532192565464888512780, 87816412737628744965244850445, 181284261217402373349924045286543629, 87719698506038833987417280782, 181284261314116402025623823988035854, 87816412590054761589242859790,
  87719698690506287918652330254, 87564956056468415664416100622, 87487584785566344119618375950, 87719698672059583427361378574, 183353068873226784215229895454757134, 183637022859134533421253440579834126, 184164365334744186497885578519908622, 86056215683582812714526839054,
  809071415813201007536674224257209175262258794766, 86075558579706995113015120142, 183353068950598119680980465026601230, 86172272663722909520701165838, 86268986729292079854677659918, 86210958299173949691146539278, 183474763330848804918317186056982798, 86056215683582834704759394574,
  86210958188493507239121785102, 86307672254062677573098279182, 183474763582305320057936629360234766, 183393633692434152119770008870981902, 183353068873226894895782298642288910, 86210958299173971681379094798, 87564956038021649600476090638, 87719698542932366115303592206,
  809963444089871662447364125747334324761944658190, 184164365257372915595792043491725582, 184164365257372934042536117201277198, 183961541548192698061722054303944974, 806930543083154026880717417158066218540044652814, 87564956038021671590714937614, 87719698672059570233230233870, 183353069124683354695085957941563662,
  184164365508829449182159958557331726, 184164365257372961712665421911429390, 86075558607377058447029702926, 797296614096536174444864553496303171324841300238, 86210958216163566175089856782, 380180651710764567807101504030358875672846, 183353068873226950235957345174688014, 183637022607677926047988395527901454,
  86075558616600496454582145294, 183474763446905591367610014382428430, 380180651467375575191982886803715009810702, 86210958271503855570823155982, 183474763582305393844912924206829838, 41099364936532638044430, 87429556364671568400766472462, 87487584822459841063140987150,
  87429556466128687194448072974, 87816412691511884780981457166, 87719698542932392503591047438, 7470594181877747384843072714638674445851756456949846632707309703438, 87487584748672847176123027726, 87739041319152690044461912334, 379244875201733669858102113316789647577358, 87487584868576692451328135438,
  385795314699745658653451645362411617128718, 87487584877800073284275933454, 384519255337014250899366112167932406534414, 87719698542932366115318272270, 87816412608501545245387788558, 809606633868106925953662197356495740526368133390, 183637022859134542644691448149053710, 183353068873226784215317856401756430,
  86443071991976376224956027150, 184164365257372961712740188710506766, 184164365373429831172315378024976654, 87487584914693513053189705998, 87816412571608035107742421262, 87487584785566344119641444622, 87487584933140296709317857550, 87429556309331362567929467150,
  87816412645395024596720161038, 87429556346224841919259742478, 87429556346224850715352764686, 87487584933140309903461585166, 87487584785566366109878194446, 87429556475352072425459159310, 86307672254062589612195320078, 86210958271503767609911808270,
  86152929859832381520090239246, 86056215849603443407242400014, 183474763679019330286817567630692622, 183637022607677972164800201309032718, 183474763330848777248152697008296206, 183474763717705039524834032914272526, 183474763446905674377901171489640718, 184002106367400001402600735157260558,
  184164365257372961712683014116348174, 183474763330848851035128991846502670, 183353068989283662898322257184035086, 86210958188493507239149048078, 183637022762420440182041762856964366, 797296614096536174445038638749764148434825122062, 795155741281419048271684410711268639724489675022, 87739041356046195784083837198,
  87429556493798807703081980174, 87816412590054818763881058574, 87429556327778106641657893134, 86307672254062602806349533454, 183353068950598165797787872784290062, 184002106367399982955856661462389006, 183637022878477392651965283876999438, 183474763330848851035128991861182734,
  86075558524366762891928408334, 183353069124683410035370955661906190, 183637022994534252888260795311329550, 183637022762420495522265187907277070, 183474763330848823365070055901499662, 180472964929970381325530516256985359, 378819522161952529536463182027850600419599, 796047771599783012282543473759316768352888688911,
  378819522161952471508088404103519920984335, 380010510162220725709685865990961108095247, 806930544444283494564181128814857137265188016399, 87487584914693583421919203599, 806930543253295129211548234153944565174404911375, 86133586982154973981618213135, 378819522161951426995257920643079782535439, 181284261314116586493046968914284815,
  181284261275430960265400825556242703, 380010510446174460160735464897151244439823, 86056215729699637714445406479, 7350472279360602026539807582419900849065046744661662316890331025679, 807644167695142129568875210018052353458721263887, 87719698506038825191345230095, 180472965142741325577692056893001999, 87719698690506287918690078991,
  183637022994534169877859687056019727, 183637022607677944494666498569146639, 380180651183421995483382858210294802419983, 807644168120494966525590667520258342629847077135, 1672052185991277690952202053412326088179409053917647119, 183637022994534271334952092458553615, 183637022685049270736979060588548367, 806395326559518678479068485606496044906264400143,
  184002106057914936241023445314310415, 86210958234610310248832962831, 87739041503620148373726695696, 181284261217402336456484276337119504, 86307672254062589612168057104, 86056215794263211186086482192, 184164365276715747156383378134012176, 379159804001530818304992348936312180445456,
  87816412590054787977524023568, 87816412691511906771205624080, 86443072028869776411430228240, 796939802003218501014130750189243163085348278544, 87564956038021649600482382096, 385114749397996254795967909961350384718096, 181203131753073232266691845130555664, 181203131888472905616817025313673488,
  385114749965903820412280251024197631873296, 3548918059710121705684949056343894652785438565078187613622544, 87487584822459814674868211984, 180797483696399706187628222768746768, 385114750047033536198065601079958986297616, 86191615375379673172343263504, 86230301001607341305933861136, 86210958234610367423412441360,
  183474763717705039524891207508431120, 183353068989283764355414662576083216, 183637022994534271335026859228270864, 184164365257372961712740188710506768, 86152929859832469481009975568, 184164365605543597761753391025885456, 184002105980543803689580831828873488, 86230301167628037969319825680,
  87487584914693513053189706000, 87487584877800073284282224912, 809071415813200804713564672288444249442384613648, 87719698690506265928453329168, 87429556346224824327084183824, 184002106328714273717809409849037072, 183637022723734850847773815765733648, 184164365334744186497872384418124048,
  86307672337072937943898788112, 184164365644229223989333563707232528, 86443072111880124743158862096, 797296614096536174445135352898343592333714395408, 181203131849787168708684449497223440, 806395324943177435606022810361326026204116947217, 87564956185595641772569006353, 379159804244919810920055626049482171355409,
  183637022723734786284182751884087569, 183474763330848721907902883666333969, 86075558552036826225892659473, 86056215766593108269661688081, 184002106367399982955856661420445969, 183637022878477392651965283835056401, 184164365412115438953279020305748241, 87487584804013088193330024721,
  86404386402642108277839630609, 3506547587078426451656526243855496489152933968347729514991889, 86443072093433393863553192209, 380010510446175814158511206168770866319633, 380010510446175814158649556758119783076113, 183474763446905572920791173886382353, 86423729234202699612494500113, 86443072056539905716144574737,
  86443072111880137937273229585, 86056215683582834704771977489, 183474763659676517173040675425358097, 184164365276715747156458144937283857, 86210958271503855570827350289, 184164365296058578717036285442134289, 183637022994534271335026859224076561, 86230301167628037969315631377,
  180635224419570658844946502283956497, 380010510446175814158649556758119789367569, 87816412571608048301875663121, 87719698506038904356178235665, 87487584804013074999213560081, 87816412608501536449303154961, 87487584868576705645476057361, 87487584804013127775771693329,
  183353069027969344466200621670732049, 183637022994534280558376905860976913, 184164365373429729715280147235475729, 183353069027969372136338722467614993, 184002106328714356728245702461755665, 380010510162222408535164638534868437831953, 378819522161952529536527745605720342532369, 3546564152545663120529565200150094454297089580266520659890449,
  87487584822459792684660822289, 87816412571608021913621762321, 180797483425600322593973277892284689, 183961541509507016493852485950116113, 86307672337072968730228560145, 86288329542405878737142812945, 86056215794263241972454002961, 184164365412115503516843695912522001,
  86191615375379673172368429329, 385795314780875239039729665980860058308882, 87564956167148858116440854802, 794442118115627719245031587350703363109762896146, 809071414281930437523424208398129829418928967954, 380180650980599176073343323037194333982994, 809249821944930719936996677341839297332201394450, 87487584868576692451311358226,
  384774467598983056034005773714851044004114, 384774466868816116874543627324996058091794, 87487584785566366109850931474, 87719698625942736437227032850, 87564956185595668160848072978, 86230301001607253344986861842, 86288329440948755545372758290, 184002106328714273717809409811288338,
  86443071945859428079735148818, 183474763446905591367522053443817746, 183353068989283709015094480500429074, 183474763408220011256714104127099154, 379159804123224096014343197648960090018066, 86443072010423032337718579474, 184164365276715747156370183994478866, 183637022859134561091356357004628242,
  184002106328714356728157741504270610, 1696745736923457332266307364175499975725920103851626770, 183474763601648179288542919499190546, 86365700794861184217956487442, 86056215794263211186086482194, 183961541238707697463749022431842578, 86191615375379598405535797522, 183637022955848543650191553427673362,
  3494778023569442226539393538640782244400334279443301649092882, 184204930076580172819792947857854738, 183474763582305283164373715150442770, 1692256001574298787430850456164614332629896966925455634, 86075558533590082152183107858, 806930542742871578829753682715052716764547780882, 380180651102292202326243595725860832809234, 183474763582305320057861862569546002,
  183474763408220011256727298266632466, 183353069027969353689519881940111634, 183353069260083129502272757193249042, 809071415813201007536403424975072537955969011986, 183353069027969409029752103068766482, 380180651061727460490192710231825697476882, 1672052187775337306834692469477019600876807193865752850, 183474763717705057971578106596561170,
  86152929758375355085358108946, 379159804082659276807039856867036285112594, 183353068989283662898304664970727698, 806395325198389332490139767112183045714190799122, 184164365412115355942948280798810386, 86307672254062677573098279186, 184164365257372934042624078129402130, 86423729234202774379272605970,
  87564956056468384878092620050, 87487584868576652868894855442, 87739041319152672452261187858, 87816412571608008719442383122, 87564956121032015524355117330, 87429556346224841919234576658, 87564956038021680386801668370, 3562256899401240725685594124943489439577256145433708720034066,
  87487584748672864768294392082, 183961541548192679614977980594393362, 806395324943177354475301197353273381285949083922, 378819521512914068221741753513530848448786, 184326624650259007642267187111006482, 183637022607677990611592653505040658, 184164365412115383613064391365234962, 183353069027969353689594648732897554,
  86056215766593183036454474002, 183474763582305366174796813636210962, 86365700794861272178888806674, 86443071945859516040669565202, 184164365257372934042624078133596434, 86307672337073025904795455762, 87429556309331336179635720466, 87816412682288508346078073106,
  86443071945859458866071212306, 183474763504934012262293374272278802, 183961541509506970376974709460832530, 86075558524366710115340914962, 184164365257372934042549311351296274, 183637022994534252888208018723836178, 184164365257372961712665421915623698, 86075558607377058447033897234,
  86443072056539905716144574738, 183353068892569698786187153990750482, 183353068989283709015164849257189650, 86307672318626281831094292754, 86056215766593183036464959762, 86307672337073025904803844370, 183353069260083129502347523996520722, 86152929859832469481005781266,
  86075558644270621361243689234, 183474763446905729718190567208259858, 87429556318554756595008409874, 385795314780875374439439909554605258707218, 87719698506038833987434058002, 380180651426812516181503007534373306110226, 87429556309331344975737131282, 87564956047245083209996701970,
  87739041485173435086359499026, 86443072028869776411444908306, 86210958234610310248807797010, 1672052187775338667964322412604416788648066238442901778, 86210958253057111497121992978, 86307672337073025904808038674, 86056215812710043220743033106, 87487584804013074999207268626,
  87487584868576683655237210386, 87564956001128192239399342354, 385114750047033536198065601079958988394770, 87816412571608048301877760274, 87429556309331393354250850578, 86210958253057023536193868050, 183474763717705057971547320289857810, 184164365257372961712652227782381842,
  184164365334744214167988494963577106, 184002105980543637668809401654317330, 184164365373429729715205380436398354, 184164365373429831172297785838932242, 183637022936505831993449892053782802, 86056215794263224380244889874, 86443071945859458866079600914, 184164365412115383613007216777367826,
  797296614096536336704064011392647639969883492626, 184164365489486709855319778796769554, 183353068873226904119097160911294738, 87487584804013048610932396306, 87487584831683164721496723730, 87429556383118321270581629202, 87429556318554725808691220754, 87487584877800073284282224914,
  87816412571608048301881954578, 87487584785566357313780977938, 86307672337073017108721307922, 3497131933727045103770681330054308069779301667407375867318546, 806395325198389332491261651278132212743467438354, 87487584748672847176133513490, 1669433175592398257404905697379388491921088333070995730, 183474763446905619037651358174941458,
  183474763717705048748206069771145490, 87429556493798794508944544018, 87564956185595641772604657938, 86075558515143412845299896594, 87719698672059543844980527378, 183353068892569661892668220271235346, 183474763717705057971547320308732178, 183353068950598147351043799070544146,
  86443072111880137937298395410, 86443072001199748261831774482, 183474763582305329281308666252759314, 87429556383118290484272828690, 87816412571608021913619665170, 87816412580831407144613974290, 183353068892569680339425488122417426, 184083235696329506029266271276634386]

/-- A modulus under which all codes of the dictionary are distinct (used only in proofs). -/
def koreanModulus : Nat := 194685

end KC.Bip39.DictData
