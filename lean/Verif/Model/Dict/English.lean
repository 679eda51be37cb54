/-
Generated from bip39/src/dicts/bip39_english.txt.
-/
namespace KC.Bip39.DictData

set_option maxRecDepth 100000 in
/-- bip39/src/dicts/bip39_english.txt: the 2048 words in order, each as the number whose base 2^21 digits, least
significant first, are the code points of the word. -/
def englishCodes : List Nat := [
  9357769593022674038239590578007683629153, 10293546304879447563327697449362198102113, 931561050711561076833, 2243767400339768243631685729, 1953625212855629278556979297, 4705521155757561621184607667880033, 3975354487397446174979142350536801, 20695099966228934358240307464490204845934903393,
  4056484125812108196907152484335713, 1953625185185539556271718497, 4664956433264323849436678399721569, 20695100902005605649827111717082927152028975201, 9868193102839591353963470201229303349345, 4097048964362224651518745040126049, 8592134551404316289337380651216572252257, 922337665480568864865,
  17662199129653090723983426560285237335788879969, 8592134389145116831487153099930419069025, 4664956433264416083223017645146209, 510173602906209, 4462132259856591583423852915458145, 2205081718771889879147085921, 9783122713933143289632179634652504391777, 4381002350642711988515571033440353,
  2243767354222846486710845537, 439804860825697, 4705520942986654262432049645224033, 9783122713933143289632179564283762311265, 4705521252471774764267948906381409, 2243767289659295005285548129, 2243767317329446300221964385, 8592133780672925435818142133099996119137,
  4097048654877104149792796943843425, 8421992840601139334278261098873366773857, 4624391420628852476773162670882913, 4056484125812052856617756759425121, 4056483951726605704955416193007713, 2127710410976237827961913441, 444202913628257, 2243767335776120005193629793,
  1953625056058317846175809633, 1934282206050938457358860385, 479387289911393, 501377522466913, 9868193265098752126307374026414106869857, 1953625120621926502209945697, 2108367680872752092870082657, 2108367708542872601480921185,
  9187628409562282177769581991391949488225, 2243767372669608152623218785, 2127710374082784864925384801, 474989249691745, 2340481318334972793813205089, 2301795784341025028770365537, 4705521252471719424048921934037089, 1953625139068652983739744353,
  1876253831273088893476405345, 10293545655842185503904769645840250699873, 1023794801866455384161, 2205081626538169510618202209, 4664956549321165639040892701507681, 9698052203332547088391464339094414295137, 8762275410346309234051593801883843559521, 1992310765296321117332439137,
  4705521155757709195119605181317217, 4056483874355519270329006551990369, 9868193305663764761704959652062363123809, 4624391536685795723368627303350369, 9868193102839281868898308623939472982113, 2205081626538112336017752161, 1953625120621873725662298209, 2340481438238787282696929377,
  4381002350642638201490897706680417, 1953625120621891317848342625, 18019010542405786923963744608428044119655317601, 4381002350642711988489182777442401, 9698051554295497799977352336555412291681, 4624391343257802935678880916176993, 8251851859964998252728410331859103252577, 8592134510839729195791405864900194467937,
  10293546304879370192047572062955175411809, 532163858530401, 2243767372669590560445562977, 10293545777536913925262949457522744885345, 4624391265886384459632756213678177, 1953625120621913308085092449, 8592134551404509717551529375400617574497, 2089024784748644461180878945,
  959231127239740358753, 4015919132519477608110251258675297, 894667531777849950305, 1876253886613272736106020961, 1953625203632222057363669089, 479387308785761, 1934282242944461789171023969, 2205081718771859092852965473,
  1116028495846736658529, 4056484048440855741553293150650465, 8592133942932202265031505507085849722977, 4705521252471627190350543631417441, 4097049022390553312622473897836641, 2301795784341051417062015073, 510173634363489, 20695099966228934358008193568773619889649746017,
  4705521252471664083847487143542881, 9102557939526640583579344772746723721313, 470591217860705, 4705520942986617368996678815711329, 9868193021709952939227661367293109076065, 2243767252765833246176968801, 4705521252471664083843089099128929, 4097048848305345968584713046065249,
  3934789571476012701361053970202721, 8592134470274677874758369071538167087201, 1005348040200576565345, 4340437570120850407895073061601377, 4056484048440708167622693710987361, 18019010627476662607913468729203591339483070561, 9868192656626193217392114383931259748449, 9357769593022770752360499989358921646177,
  2243767289659255422902599777, 4705521252471774764254754802499681, 1069911640060515582049, 4624391536685795723443394108719201, 1023794806264520769633, 4462132221171076036220161619918945, 8592133942931950808617822931669445771361, 9442839738539839345227886369993002057825,
  1934282279837958732691538017, 1953625111398475300547330145, 1953625175962079558530760801, 1116028443070189011041, 8592134186321136851830685068008452259937, 2089024895429056126894735457, 8507063797414727473134845493223587053665, 1060688246033434542177,
  1116028447468189384802, 20338289063899991363550950017840602517329674338, 2127710466316478845171007586, 1953625074505000347221622882, 452998994067554, 8592133780672925435818142089119524716642, 10293546061490648376303325031258398916706, 996124654969542410338,
  4502697079063830360636703104827490, 3934789590818761251564474465255522, 4624391343257719925308558963376226, 501377505689698, 4908345213108452097751548541534306, 9357769349633700765915640458949087461474, 4381002428013936773726931553091682, 931561081497884557410,
  1914939466724142258038243426, 4705520981672298936910227636748386, 4097048828962523631383007404752994, 2011653476953001206057271394, 1014571350664748728418, 4908345367851104582301905798037602, 8592134429710168152363392454316722749538, 4097048848305290628282123143872610,
  940784391962096566370, 4097048945019356197465651259900002, 2127710410976264216236785762, 4097049022390479525602198567256162, 4056484048440745061058064540500066, 8592134551404316289337380668808762490978, 2301795784341025028755685474, 1069911631264389005410,
  2011653476953058380661915746, 9868192900015205175157824778764829065314, 1069911662050714583138, 4908345000337627749422089006743650, 4624391343257775265567168379486306, 9357769187374501308102306365024036192354, 4056484048440800401365052459843682, 8592134145756085530825318434737412374626,
  439804871311458, 931561046313529245794, 922337687470814003298, 10293545777536913925262949457522730205282, 922337705063000047714, 2011653633750400599387537506, 4624391343257775265567168387874914, 2069681916294503406457847906,
  1953625046834871042540830818, 1953625129845219374233813090, 9868192737756025060093040848677898289250, 2243767381892962597291950178, 2069681897847776924934340706, 2224424568779146122682695778, 1934282325954792528665378914, 1934282335178190953799221346,
  9272699001292729564616571358908617064546, 4097048964362224651571521617133666, 931561090294000648290, 1051464926773112733794, 2011653624527041756678586466, 1934282362848245491718684770, 1069911582885898354786, 1116028456264311767138,
  996124641775432237154, 903890938999070523490, 931561059507681362018, 2224424587225929778817138786, 986901296126856527970, 2243767381893024169949397090, 4624391343257627691605782631022690, 4178178506062655083645728534298722,
  4827215632722404661394439063732322, 1060688290013880778850, 4421567440649389699668363840585826, 4097048654877150266648583194280034, 527765814116450, 532163860627554, 9868192737756025059991583756272508338274, 2127710410976237827984982114,
  1934282325954757344305872994, 2224424568779128530509234274, 1953625212855567705939378274, 1934282206050938457379831906, 4097049099761768874413419055284322, 2069681916294538590842519650, 4097048732248310488211705275875426, 1972967869172112330575577186,
  4705521039700701384880300174082146, 1992310765296294729063858274, 2069682063868491180518932578, 18732635154394133001075466942357033057309950050, 4462132066428478891805268470923362, 4097049099761851884805731213377634, 2108367653202697554969493602, 9698051554295497799977352336555420680290,
  2127710540103507916602998882, 2011653624527041756691169378, 4097048828962357610607179223531618, 2340481309111565572605214818, 4705520981672262043356109561921634, 9442840063058393003682283229677166264418, 1934282307508048454974701666, 903890934601036595298,
  986901282932729577570, 4705520981672308160251478207889506, 4097048828962376057404029491216482, 4624391343257692255192448440991842, 4462132066428414328214204633317474, 4624391343257655361721893207933026, 2243767381893037364101513314, 505775594143842,
  20516695365770319316061333431258410586426310754, 1116028522235022016610, 4624391343257775265567168413040738, 2205081626538191500869632098, 1125251925058202370146, 8592133942931950808470248965885585784931, 2127710410976242225995841635, 1953625120621851735402479715,
  4664956471950088427685364807762019, 931561028721326424163, 931561046313512468579, 996124654969542410339, 1005348027006397186147, 3934789668190050600384491019042915, 1033018147515008024675, 483785319645283,
  2089024710961650574125170787, 4381002428013798423128786545410147, 2340481309111609553028382819, 4462132259856637700257648906076259, 1953625148292020622524940387, 4664956085093844597796481122959459, 4462132259856739157350054308610147, 8592134145756066187790843728960690323555,
  9187627841655045389224835954623909986403, 9357769349633700766035544286632106524771, 501377505689699, 4462132259856527019810798834810979, 922337705062983270499, 2147053205643402587825766499, 4705520981672345053766013864116323, 2340481438238835661181288547,
  1069911657652659683427, 931561081497884557411, 959231197608448884835, 4502697059721081810433282572025955, 4097048828962523631378609358241891, 4381002350642711988511172982734947, 510173598711907, 8762275450911186469563691934620221177955,
  2011653476953084768932593763, 21587131050229603144677105347220036808815411299, 4097048828962523631383007404752995, 4705521039700701384933076696563811, 1953625185185539556269621347, 9357769593022770752360500068523716903011, 931561094692024090723, 8762275410346309233922466628552232009827,
  4908345329165330780729561042649187, 4705521155757561621158219395104867, 4664956471950079204361706472996963, 10293546223750041262552168760659813597283, 4381002350642564414554185268199523, 9357769349633700766035544295428207935587, 2205081663431574095145205859, 2069681999304851738142441571,
  19624665217546889728776956113462337388574408803, 4097048732248402721896889430573155, 2224424531885640383069159523, 9698051554295729913697824795636873035875, 4097048732248439615385036849676387, 1953625185185451595354079331, 1069911582885883674723, 2166395963416947258902446179,
  2069681916294520998635503715, 4097048964362077077574951467221091, 940784391962102857827, 4908345329165450684535253835448419, 2243767381892980189469605987, 9357769187374617364796521880309207138403, 1972967869172112330554605667, 1934282307508048454947438691,
  10293545696407256167852377273315503374435, 4097048654877104149762010626654307, 4097048964362169311339300480090211, 8421992840601371448035627107674916651107, 8592134145756240273127315001625804800099, 2069682017751683772782215267, 2127710493986674120587214947, 2205081589644624188588163171,
  19624665217547051987763643139341647176116732003, 4097048828962366834049584797319267, 9357769187374907507048569671910778994787, 1116028526633043361891, 2089024784748662053352243299, 2108367597862403761177100387, 1033018094738472960099, 10293545736971978661136265775875939631203,
  1097581698996456390755, 1116028443070165942371, 2127710337189279125320237155, 2069682054645101551465529443, 4624391343257793712245271406051427, 2069681916294538590829936739, 4705521155757561621140627223740515, 1972967878395484367417770083,
  1895596690503752358220005475, 4015919132519422267904418396504163, 1033018129922845048931, 2069681916294564979109003363, 950007807979431133283, 1953625185185513168013623395, 2011653633750387405254295651, 1934282390518423174927876195,
  2127710540103507916590415971, 903890974183436320867, 2166396074097482069912322147, 9698051554295729913725494999708375973987, 4218743112499115629424487824359523, 2011653476953001206078242915, 2243767381892962597298241635, 9868193386793190405395059298023279427683,
  931561015527216250979, 4097048693562702707274451249004643, 996124641775432237155, 1014571385849141788771, 9868192656626270588589229452792929714275, 2205081718771854694800162915, 4462132221171076036184977235247203, 8592134226885840002098545622060007161955,
  931561055109634850915, 9868193265098752126215140284055339139171, 1914939466724115869788536931, 4462132259856628476881214034149475, 10293546061490377577039635195200452690019, 9868193265098558698056331831674868334691, 9868192656626580073525263830362909311075, 9272699122986993758275551721047019487331,
  20516695365770319316138704665266980789652815971, 9868192656626270588607676205662732288099, 20338288213193749542728504286589777833013280867, 9187628409562475605946837240622694269027, 18019010542405786923731630915625639576097259619, 986901296126856527971, 996124668163711303779, 4624391343257738372061428795310179,
  1116028509040869900387, 2089024710961668166340575331, 931561077099867406435, 1014571425431560388707, 9868192656626270588644569711402337435747, 1069911662050735554659, 4462132259856693040516258343157859, 2011653476953089167008464995,
  10293546223750021919683714725158236192867, 4097048828962486737899258061520995, 4097048964362196981481799338164323, 4462132143799805134144218763100259, 2205081626538178306717515875, 4097048983704982425217347755180131, 2069681916294503406470430819, 4097048828962376057346854880280675,
  2243767261989126118192447587, 1005347978627921215587, 1953625139068591411101171811, 2011653624526953795760947299, 4624391343257775265483605523038307, 2089024913875778210361245795, 2340481512025737189264457827, 2108367524075445058537521251,
  4705521059043486828580664219009123, 2069681934741265072366026851, 1097581716588655018083, 9868192737756025059991583791456880427107, 1953625129845254558618484835, 2166396129437661514495426659, 4015919132519477608136639537741923, 1033018156311136698467,
  2224424568779190103160389731, 4218743112499124852770136412651619, 1934282408965167248650010723, 9187627841654832618225243569658301251683, 2089024747855169507905503331, 4097048964362113971133467651473507, 8592134145756066187901524215393215840355, 4218743112499060289192266708287587,
  2011653624527041756691169379, 532163866919011, 9187627841655045389317069714574911996003, 931561006731135811683, 8592134389145348945235295714704913072227, 492581454610531, 17840605856875890549584944907883780384428654691, 9783122795062975132286989313981714268259,
  9868193102839281868981319038241878311011, 9357769349633700766035544295428241490019, 1953625212855642472736358499, 9357769593022770752249819595285408514147, 4421567440649389699663965806657635, 931561085895973011555, 1953625120621856133499322467, 439804854534244,
  4097048732248282818113186861940836, 1033018147515008024676, 1953625037611556180267630692, 4624391343257655361704300979945572, 4178178506062655083645728504938596, 959231197608448884836, 20338288213194398579816478216249076422298042468, 1014571447421763584100,
  532163831267428, 996124606591039176804, 4097048983704853297907676697591908, 4664956239836312614928091516502116, 4097048674219843476567006019321956, 20338288213193668413167460803236161416689877092, 4097048674219917263543300857528420, 8592134226885840002190779298448068837476,
  18019011988605318995244490944997552497220386916, 18019011903534727264758418536344173881503776868, 1051464856404353876068, 8592134429710032752708489117190714294372, 4097048867648048401897162950049892, 1116028465060383817828, 4097048693562813387743291531853924, 2340481281441484646379421796,
  9698051554295768599259488907890985533540, 4056484048440671274103759934849124, 4097048964362113971098283252121700, 4381002350642601308024740501258340, 9868193305663455276768925340463062319204, 1116028500244755906660, 4705521233128777183019533296730212, 4056484048440708167605101493485668,
  9868192900015456631820538350797808730212, 2011653633750391803286126692, 4908345367851104582367876495704164, 4097049022390553312622473870573668, 18019010457334992369575063675858208136770879588, 4705521233128814076520874855366756, 4462132105114086672746920510750820, 986901313719021600868,
  9698051716554639229462025419110603554916, 10293546102055525612202804736766152540260, 4381002505385032431747368304509028, 4705520942986617369014270972395620, 9527910776483298012393178298285220167780, 4097048654877104149792796945940580, 4097048983704982425204153594675300, 9272698433385241319446005128303871000676,
  996124606591047565412, 8507063635155721443212842014231668719716, 2340481438238760894407376996, 931561011129157156964, 4381002428013945997041793820000356, 1069911600478071816292, 4624391343257646138297079769858148, 9187627841655045389224835915041508163684,
  10293546304879447563346144184639829311588, 8251851819400159702611955614713422807140, 4624391343257719925308558980153444, 20338289574323095532218164324310516397099712612, 4705520942986617369005474887762020, 1069911657652676460644, 18019010712547132643439006040757875952670736484, 20338288213194479709590292477834113735374930020,
  8592134429709781296138009331496988442724, 959231197608465662052, 9783122713933220660838518106337377779812, 20338288213193749542902589567720818276971839588, 10293545534147940653040456373694934024292, 18019010542405786923576888392268244958245290084, 4705521233128814076534069003288676, 4097048674219917263626863749628004,
  8592133780673002807199724677883154661476, 2340481512025847140408361060, 4624391536685906403833069562757220, 20695100902005605650001197145787898195469140068, 452999023427684, 996124654969571770468, 9357769349633836165690447619360097828964, 4462132143799639113412371005046884,
  4097048983704853297960453276696676, 4908345077708815641127709946413156, 2205081718771863490893185124, 1051464900384839958628, 931561081497913917540, 4097048828962357610690742094659684, 931561094692053450852, 2243767261989126118192447588,
  4462132259856573136596216353652836, 1876253877389883107065200740, 8421992840601487504951203525456337829988, 1097581698996468973668, 2108367524075445058537521252, 2224424568779146122695278692, 2243767261989161302564536420, 2089024812418720989330800740,
  2069682017751630996245053540, 1033018129922857631844, 1953625212855602890311467108, 1033018156311136698468, 1005348066588851437668, 532163866919012, 986901243350310977636, 903890938999083106404,
  931561059507693944932, 4178178506062655083645728546881636, 1069911662050748137572, 2011653476953084768974536804, 1116028526633068527716, 1972967989075913625326059620, 8421992840601352105093386047500004098148, 2205081626538112335990489189,
  1953625120621873725635035237, 2340481382898603440052633701, 1014571425431531028581, 2011653633750400599370760293, 4908345213108488991244094007148645, 1069911662050706194533, 1116028522234980073573, 1023794753487924887653,
  10293545777536913925262949457522717622373, 10293546020925829169101441288963442606181, 931561028721332715621, 1069911618070247374949, 8592134470274600503422903444113863999589, 4705521233128906310184068800577637, 452999006650469, 2243767280435896580162191461,
  4624391343257664585102726130565221, 2301795784340981048305254501, 2205081626538099141874024549, 17662199129653009594364354600696634969746833509, 9868193102839204497627406552394671063141, 9868193102839281868935202120882980913253, 20695100902005443390627653820738484895295209573, 20338289063900315882027237321239266718252007525,
  1953625194408858816589332581, 931561081497907626085, 4340437860263047115326910139203685, 4908345058366039420729014007890021, 8592133780672673979404459526897277075557, 4097048732248439615402629046206565, 9357769593022770752360500042135463002213, 4908345271136956002849210843005029,
  9698051554295787942127942991771112308837, 2340481456685570938822983781, 4097048828962357610602781162340453, 2243767234319010007619731557, 439804881797221, 9783122713933143289576839332062654627941, 8592134429710110124053178165030369099877, 2340481392121918302330028133,
  4908345116394506432360519099744357, 8592133780673002807199724607514420969573, 4097048732248282818086798610137189, 4097048867648048401901561015435365, 8592133780672925435818142071527365935205, 2340481410568684366272135269, 4705521252471664083812302763065445, 4218743189870377308106403585458277,
  4218743112499014172318888286486629, 4381002563413600900449288583118949, 4097048945019411537755047012073573, 2205081626538169510622396517, 4097048945019300857295002801274981, 2340481438238844457301573733, 18019011648323519981658872757478174382071218277, 8592133821237763986100617454550100476005,
  2089024710961681360484302949, 2166396037203993922503704677, 426610750652517, 1953625185185451595375050853, 1953625046834932615204569189, 9357769593022770752351276670098618712165, 2205081718771881083085520997, 2243767354222934447670427749,
  4097048906333600842575807592267877, 2340481281441515432734359653, 8592133780672925435855035608053307146341, 4097048983704853297986841564151909, 9187627841654929332429163250176359399525, 4664956123779350921601747362250853, 18019010542405786923654259497149584655312224357, 996124641775446917221,
  1953625111398536873196388453, 4097049022390580982725390331019365, 2243767234319010007640703077, 8592134145756336987285117804367432384613, 4664956433264323849436678443761765, 18019010882688153844515351744962317579043471461, 4097048983704927084888369622155365, 8592133821237880042914736828304626548837,
  4097048964362224651518745084166245, 8592134470274987359685180055081067741285, 18019011903535051783273391336843297700066623589, 9868193305663687390351047254176125943909, 9868192900015127803942262904256827752549, 1953625120621882521776291941, 2243767381892997781689204837, 1069911618070289317989,
  4015919132519477608163027829391461, 4056484048440671274116954114228325, 4705520942986617368996678826197093, 4097048945019300857277410636202085, 9357769349633700765961757310337316552805, 4097048964362169311343698560155749, 9783122713933143289632179617060362387557, 4056484048440708167622693719375973,
  1876253923506826854235373669, 444202951376997, 10123404918595056380305096674814273257573, 4015919132519459161361779466960998, 931561011129140379750, 10293546304879505591850049273505995817062, 931561015527186890854, 2243767335776137597367091302,
  2011653633750361016952160358, 996124654969542410342, 1953625185185499973851021414, 931561055109605490790, 4908345213108488991217705728082022, 4664956471950042310869160998994022, 483785319645286, 2340481299888237516173607014,
  10293546264314473613593232927218401804390, 1005348053394676252774, 9357769593022770752249819595285366571110, 510173598711910, 2089024710961676962404237414, 4624391343257664585102726113788006, 8592134510839535767660267524232214216806, 2243767317329446300215672934,
  18019011988605643513798149371724419216116285542, 8592134389145348945235295666326367895654, 21587131050229035237479002603945600535196860518, 9187627841655006703561714745566350540902, 444202909433958, 922337647888387014758, 996124624183225221222, 4097048828962348387283520846823526,
  1953625037611556180276019302, 19267852103382642877742057815486705177070665830, 2011653476953084768940982374, 2205081626538178306696544358, 523367746633830, 2205081626538090345774710886, 9357769593022770752360499989358896480358, 1934282307508030862763491430,
  4097048945019411537702270443454566, 931561050711575756902, 1005348027006413963366, 4624391343257775265531984015786086, 2089024710961650574141948006, 922337687470814003302, 931561059507668779110, 4624391343257655361704300996722790,
  4218743421984023993646364814737510, 931561077099854823526, 1005348053394693029990, 2243767381893037364076347494, 4381002350642545967814509613547622, 959231197608465662054, 510173615489126, 9783122713933143289595286146505097871462,
  527765801533542, 950007746406779977830, 1953625129845219374233813094, 2011653624526953795748364390, 1069911582885892063334, 4624391536685924850568347172995174, 931561019925256470630, 4705521039700701384880300161499238,
  1033018129922845048934, 2243767215872327506557141094, 2069681916294564979109003366, 2205081718771867888933404774, 4624391343257802935661288725938278, 1934282279837985120949633126, 2011653624527041756678586470, 532163854336102,
  1005347978627914924134, 2224424587225881400305516646, 452999023427686, 996124641775432237158, 922337678674733564006, 4827215632722349321135829656010854, 922337691868873097318, 1069911644458549510246,
  1953625037611573772483035238, 4705521252471627190350543625125990, 4705520981672262043417682200494182, 986901309320996061286, 8592134226886072116021932349515169267814, 2108367708542942970231390310, 8507063797414727473134845524009895854182, 4381002505385198452439633664933990,
  4624391343257775265562770353946726, 1934282325954845305229803622, 527765814116454, 8592134145756201587537980733678724055142, 1953625129845219374246396006, 20695100902005605650155939613805091378511741030, 2011653624526971387946991718, 4056484048440708167574315195170918,
  4097048732248402721932073823633510, 950007807979443716198, 2243767335776163985681809510, 2243767381893024169955688550, 2127710540103507916602998886, 4462132066428617242385821292560486, 2243767289659330189686997094, 996124624183258775654,
  483785361588326, 2340481401345329921618083942, 8592133780672673979367566109118618927206, 1116028517836975505510, 4097048945019411537759445073264742, 4705520981672262043356109519978599, 1014571385849112428647, 4908345445222172570245814386950247,
  10293546223749731777468560430500149198951, 931561055109605490791, 492581412667495, 4097048732248282818135177094496359, 8592133942931950808470249036254329962599, 4462132066428414328214204591374439, 4015919132519403821199927082483815, 9868193102839281868935202178057562488935,
  505775552200807, 1033018173903287091303, 931561085895931068519, 4624391343257664585102726113788007, 1953625074505075114012311655, 931561112284210135143, 9187627841655006703561714789546815651943, 4664956471949986970641337925238887,
  1953625175962136733097656423, 4097048828962523631356619134074983, 8592134226885840002273789695158273441895, 8592134389145348945235295745491205095527, 2243767381893024169934717031, 2243767335776102413011779687, 1069911604876118327399, 4097048828962403727489353704800359,
  4624391343257655361704300996722791, 8592133902367228315223253986656965886055, 996124681357838254183, 931561094692040867943, 922337630296215650407, 4097048654877150266560622257766503, 1953625175962079558507692135, 2224424568779128530496651367,
  1953625046834906226912919655, 8592134429710071438408503774813297311847, 1953625028388188541482434663, 2108367653202697554956910695, 2340481438238822467064823911, 1953625212855629278577950823, 1097581760569107546215, 931561090294000648295,
  1069911582885898354791, 9783122713933143289503052355767818518631, 922337678674733564007, 922337691868873097319, 1953625185185513168019914855, 8251851778835321152532394447287835689063, 4381002428013918326987255919411303, 4543261782214411815831211675222119,
  4462132317884994031446702000439399, 1014571447421792944231, 903890886222518681703, 1953625037611499005698637927, 2127710410976237827984982119, 2243767335776102413030654055, 1953625157515335484810723431, 2224424568779128530509234279,
  10293546304879447563419931134546407325799, 2243767215872283526104612967, 2127710374082767272751923303, 922337665480600322151, 1972967869172112330575577191, 1069911618070276735079, 10293546223749731777385550095362631401575, 2166396147884431976484044903,
  1097581760569120129127, 2243767335776190373960876135, 1934282362848245491731267687, 2224424568779146122701570151, 1953625046834906226931794023, 2243767317329393523699482727, 4624391265886522810182522720223335, 483785361588327,
  479387323465831, 2243767289659246626767634536, 1051464873996531531880, 940784422748413755496, 4624391343257710701932124062089320, 9698051554295729913725494964523980816488, 922337687470797226088, 2340481419792082791378714728,
  4624391536685740383202376845099112, 922337705062983270504, 2011653624527028562515984488, 9868193305663377905534916765861768331368, 510173598711912, 931561094692024090728, 986901331311199256680, 4056484125811923729497201712300136,
  922337630296200970344, 4218743441326864777539367561330792, 2243767372669590560422494312, 2340481475132249041818091624, 18375823486429134267818977587260787487993233512, 4705521039700701384880300146819176, 2147053251760236383828967528, 4705520981672317383623515029110888,
  1033018143116969902184, 483785328033896, 1023794797468394193000, 4462132066428414328152631956996200, 959231144831907528808, 996124654969559187560, 1069911640060490416232, 492581429444712,
  931561077099854823528, 10293546223749925205673485778249282748520, 2340481290664812702790058088, 4908345077708815641079331434791016, 922337678674733564008, 931561050711588339816, 10293545534147785910470982066116275208296, 4827215632722349321135829656010856,
  931561055109634850920, 2340481318334981589912518760, 922337691868873097320, 931561068303774384232, 1014571425431560388712, 4624391536685887957154966550872168, 1953625185185526362159448168, 19267852103382561748103643171911521240667390056,
  1069911662050735554664, 2089024747855165109852700776, 1051464926773119025256, 2205081626538178306717515880, 431008803455080, 931561028721368367208, 2127710337189314309711200360, 4097048828962357610655557735153768,
  2205081718771859092859256936, 8507063270072406605839105594224468295784, 4908345329165349227482430878777448, 1069911640060515582056, 4097048828962376057421621677260904, 2340481438238835661223231592, 1069911657652701626472, 8507063635155450643727791324055994368104,
  4056483951726762502209674019864680, 444202905239657, 1014571412237395689577, 894667531777820590185, 21587130029382258993197927790541252375835836521, 931561050711565271145, 4097048945019356197500835636183145, 474989249691753,
  9187627841654793932617462606015989022825, 9783122713933143289595286111320732074089, 1953625074504987153107255401, 8592134470274600503579700715963855929449, 8592134429710032752708489147977056649321, 4097048867648159082392391549714537, 4705520942986580475508531384025193, 4097048964362169311343698537087081,
  8592134551404509717551529375400611283049, 8592134429709994067229835445627281997929, 959231127239731970153, 8592133821237880042914736828304605577321, 4097048848305290628282123162746985, 18019011903534727264758418536344173881522651241, 2321138505221103542650011753, 18019011988605318994954348692949813672227635305,
  4624391536685860286977283333292137, 21587131050229805969005255768864167303831355497, 4705521155757524727639285669298281, 9868192656626347959841684762671829745769, 4421567498677782924248807299350633, 4097048828962348387261530633142377, 9868192900015437288915190761178112458857, 9187627841654832618382040841508265918569,
  4705520942986617368970290526158953, 4908345329165478354673354644914281, 4097048983704853297956055228088425, 2205081626538143122343329897, 20695100902005605649807768959309373684897022057, 2243767400339772641703362665, 10293546223749809148804026137089283194985, 4097048867647974614978042735362153,
  4705520942986617369009872944758889, 4097048674219917263613669620580457, 8592134389145116831441036248542261280873, 9187628287867689156213879539793896931433, 4705520942986580475526123572166761, 20695101327358564301270990393001449996268077161, 1023794806264506089577, 4705521252471627190368135809073257,
  4097048983704927084971932484894825, 8592134551404451689084517783477942222953, 1014571412237427146857, 4056484048440671274099361917698153, 8592134470274600503505913766057309372521, 1953625203632274833923899497, 1005347996220111454313, 2340481438238822467085795433,
  4705520981672298936839858892570730, 4624391265886532033545763440033898, 501377505689706, 1125251925058160427114, 9783122795062975132314659355325454352490, 2224424522662268346208092266, 2340481382898577051781955690, 2089024747855178303971262570,
  431008790872170, 1014571385849141788778, 931561046313541828714, 10293545696407256167898494186276350066794, 532163860627562, 1953625074505000347263565930, 1953625037611534190077018218, 1033018147515049967722,
  4097048828962403727520140055543914, 4624391536685804946789042684428394, 986901291728822599786, 1069911662050748137578, 19803071179135499796991965337663469282677227627, 1014571368256934772843, 1033018112330644324459, 9527911019872135884942321296515251830891,
  532163839656043, 986901243350285811819, 439804871311467, 4908345077708843311199840033046635, 922337687470814003307, 9272699001292439422309183379066377470059, 1060688290013868195947, 510173615489131,
  9357769187374559336357180426487334961259, 931561085895947845739, 4462132066428561902175590377586795, 968454587237506482283, 931561019925260664939, 1953625065281650300626665579, 2069681916294564979113197675, 1097581760569111740523,
  431008761512044, 2089024747855085944986140780, 2205081718771810714305691756, 4624391343257627691544209950507116, 1116028456264282407020, 931561046313512468588, 1033018147515008024684, 18019010882687626502252513054584652628024623212,
  4543261898271299722194455132897388, 1953625074505061919872778348, 2205081626538169510595133548, 2127710410976321390833041516, 2011653513846577314398208108, 10293546223749712434673893380089482051692, 894667606544604987500, 523367738245228,
  1014571447421763584108, 9868192900015495317483659537865135620204, 2205081626538191500827689068, 1116028553021305651308, 4624391343257627691531015819362412, 940784374369910521964, 2127710493986586159650701420, 1953625212855567705912115308,
  8592134389145348945235295675122460917868, 1069911604876109938796, 452999002456172, 2089024710961619787807981676, 4056484048440708167565519074885740, 8592134389145348945226072329473885208684, 2127710466316522825644507244, 922337687470805614700,
  4218743441326818660736357892096108, 1060688268023627251820, 8507063797414727473070281906557751918700, 4462132259856683817139823420899436, 4624391343257775265567168379486316, 2089024747855173905924751468, 1051464838812176220268, 10293546304879621648581158320919061463148,
  10293546223749654406271445282473648324716, 8592134429710032752708489103996583149676, 931561024323296690284, 1069911604876118327404, 2243767280435896580162191468, 931561046313529245804, 903890938999057940588, 2243767289659295005296033900,
  986901291728797433964, 1014571412237408272492, 4056483951726790172391755248304236, 1069911662050722971756, 4097048828962523631383007421530220, 931561094692040867948, 4056484125811923729497201729077356, 922337630296221941868,
  1014571350664769699948, 9698051554295729913725494916145498554476, 2089024710961602195642908780, 986901243350298394732, 1914939466724089481509470316, 4908345213108452097733956384850028, 950007803581390913644, 1033018156311130407020,
  10293546223749731777542347441979388854380, 922337718257152163948, 4097048732248402721984850375475308, 931561094692053450860, 2089024710961698952666153068, 2340481373675165432542134380, 8592133942931950808516365848060134162540, 4624391343257609244839718701498476,
  2205081589644654974938906732, 2011653476953058380695470188, 4908345329165478354734927310749804, 4664956123779350921645727837847660, 8592134226885840002153885810300641345645, 439804854534253, 1914939466724089481480110189, 4705520981672326606973561642942573,
  922337665480564670573, 996124641775402877037, 1014571385849112428653, 2205081718771845898677780589, 931561046313512468589, 4381002350642638201508489865461869, 483785319645293, 4097048732248282818117584908451949,
  8592134470274600503432126785364386906221, 2147053205643384995639722093, 9357769593022770752351276665700536549485, 4381002350642711988489182750179437, 1953625120621913308053635181, 4097048828962357610677547925766253, 2011653476953075972839571565, 4462132143799694453666582336897133,
  4097048867648048401949939499794541, 4705520981672298936905829590237293, 18019010882687626502020399398675753824069615725, 986901313719013212269, 1060688290013851418733, 4624391343257775265562770324586605, 2011653476953084768932593773, 19267852103382115535266448051729612994911404141,
  959231202006495395949, 4867780335872829319246728858173549, 4624391343257775265567168371097709, 9272699244681528751465699761088708477037, 931561112284210135149, 4827215632722275534111156285210733, 1014571350664748728429, 8592134389145348945226072294289513119853,
  1069911582885877383277, 17662199129652847334720011984287247510792044653, 2089024710961606593668448365, 1876253840496408153758367853, 4908345058366039420772994456223853, 1069911631264389005421, 4624391343257609244839718667944045, 4908345329165423014454327636918381,
  9357769593022770752360500037737399713901, 1079135012097336803437, 2340481299888255108368040045, 1953625074505061919881166957, 2243767289659316995520200813, 2340481438238835661189677165, 959231197608457273453, 8592133942931950808627046365278916051053,
  2089024710961676962412626029, 4056484067783548951572871039156333, 4097048828962376057360049000939629, 20695100391582136398154545240388746709691269229, 986901282932704411757, 9357769593022770752286713052646476873837, 1914939466724115869775954029, 922337687470814003309,
  9272699244681528751465699717108260143213, 2205081718771863490880602221, 4097048983705037765401190359629933, 8592134145756085530603957571823595421805, 4624391536685887957154966538289261, 4908345329165330780760347376615533, 1060688290013868195949, 8592134105191227637849633128893789503597,
  527765801533549, 1934282242944510167663771757, 8592134389145348945235295767481446039661, 4097048828962422174211437194379373, 2089024747855094741108523117, 4908345097051610308173722567049325, 479387302494317, 4705521155757561621158219416076397,
  9698051959943921986666669727498534649965, 4908345077708815641127709946413165, 9698051554295729913725494968922056687725, 2011653633750383007214076013, 1014571412237420855405, 2089024710961668166340575341, 931561077099867406445, 8762275410346309233940913412208381132909,
  19803071604488093365179035291324521216579993709, 4624391343257664585102726143148141, 4462132259856591583423852940623981, 2205081718771889879172251757, 19624664707123014828892973753352439349882388589, 1953625185185539556298981485, 931561094692053450861, 1953625092951823585797734509,
  959231127239746650221, 4462132143799685230241768965931117, 931561050711600922733, 21587130539806093328127303220077187057747755117, 4097048828962366834053982868996205, 4421567556706130032087813756813421, 19446259255958888132598599767437124977723179117, 1914939466724142258080186477,
  1069911662050748137581, 4381002350642711988515571071189101, 4137613648169688621645951089508461, 10293546223749731777542347437581363314797, 959231202006545727597, 1953625212855602890275815534, 931561055109605490798, 4462132143799731347145933662978158,
  4827215632722404661394439034372206, 2340481456685584132937351278, 4462132259856591583423852911263854, 4097048945019411537759445031321710, 1051464838812167831662, 986901243350277423214, 922337647888387014766, 18019012158746826974306066600512116578934849646,
  9868192656626270588589229430802676187246, 9698051554295497799977352310167114350702, 4827215439294181289324606448992366, 1953625212855642472702804078, 1069911662050714583150, 510173607100526, 9102557939526640583579344772746696458350, 9187627841655006703700065400885962866798,
  2205081626538178306696544366, 1060688307606045851758, 1069911684040947138670, 931561011129157156974, 2243767280435896580162191470, 1953625120621851735431839854, 1953625185185486779740848238, 8592133861802563850498610765601443938414,
  4097048828962376057408427525144686, 4381002350642638201530480127377518, 2011653633750400599400120430, 931561081497913917550, 8592134145756066187790843746552905728110, 931561085895960428654, 8762275410346309233885573188783345500270, 4097048654877104149784000873889902,
  2089024747855173905945722990, 523367767605358, 9698051392036162942250860413705634447470, 4624391343257609244839718701498478, 1953625185185526362172031086, 510173640654958, 470591180111983, 1116028460662331015279,
  4705520942986617368970290500993135, 4097048732248356605085083655733359, 8592134389145348945078498420864667615343, 8592134551404567745870967054316001558639, 4462132143799639113443157303361647, 9783122795062975132286989331573860466799, 2205081774112047333485052015, 2127710337189279125301362799,
  9698051554295381743052552493960576106607, 1051464900384816889967, 448600958042223, 2205081626538107937954463855, 4097048654877104149722428203860079, 2127710374082833243424424047, 474989243400303, 1116028443070163845231,
  439804877602927, 1953625212855602890298884207, 8421992840601410133643408062521131663471, 1069911618070266249327, 931561011129167642735, 444202928308335, 2127710466316505233477337199, 4097048867648048401923551247990895,
  1116028491448681758831, 1014571368256957841519, 1876253923506760883520929903, 9357769593022770752305159783526061572207, 4097048964362169311343698543378543, 4462132259856591583423852942721135, 4097048732248402721896889451544687, 2243767289659246626803286127,
  8507063797414727472996494877486382841967, 2205081626538099141886607471, 21587131050229035237343602829138422532057071727, 2127710337189287921425842287, 4705521155757561621140627236323439, 19267852103382318359188399268856041561500156015, 4462131989057198766357288771911791, 8847345555863532569506901234170315407471,
  2205081626538116734076846191, 9698051959943825272554983723368575926383, 2205081626538169510637076591, 4705521291157354875119878723862639, 8592133821237647929221934498527850791023, 996124606591074828399, 1014571368256970424431, 1051464856404389527663,
  483785365782639, 2205081626538143122362204271, 4462132066428441998361101529514095, 4624391343257775265562770374918255, 1953625139068652983769104495, 1069911591681962016880, 4097048828962376057360048984162416, 931561028721326424176,
  1051464873996531531888, 4097048654877030362772521634234480, 1005348027006397186160, 1876253794379591949941211248, 2089024747855138721544274032, 1914939466724120267805687920, 9698051554295497799977352332157338517616, 2205081626538151918409089136,
  4097048674219843476632976708599920, 4705521155757561621180209619271792, 986901309320966701168, 4705521175100494638850755526656112, 2340481456685579734890840176, 1060688290013851418736, 2011653476953084768932593776, 959231202006495395952,
  9868193102839281868898308698706236407920, 4381002621442067912076395599102064, 9357769714717151003018067271541996912752, 1953625185185539556269621360, 931561094692024090736, 9868193102839281868935202208843888066672, 1953625037611499005671374960, 4705521291157336428292242097045616,
  1051464838812167831664, 9868193102839204497738086999244727648368, 9357769025115185793133588061612096356464, 483785328033904, 10293546304879505591665581881147420311664, 4381002505385050878465053734994032, 4097048828962486737872869761482864, 4624391343257738372061428774338672,
  9868192656626270588533889246960059154544, 4705521059043569838986170489372784, 4462132259856683817135425374388336, 510173607100528, 1953625139068652983731355760, 2147053325547225872812998768, 4097048964362040184143978652762224, 19267852103381872146177119042787249532952379504,
  2147053270206932079035285616, 4015919132519422267878030111146096, 8592134389145348945235295675122469306480, 1953625037611516597865807984, 452999010844784, 4462132259856554689878530904293488, 996124654969559187568, 2243767344999522828378177648,
  986901291728797433968, 9698051554295439771482670602133887254640, 931561068303761801328, 4381002621442086358816071278919792, 2011653476953084768949370992, 1876253997293829537321189488, 1953625037611499005686055024, 4705520981672326606947173386944624,
  8421992840601487504951203525456325247088, 1953625194408823632217243760, 1116028443070165942384, 4097048964362040184086804056506480, 4097048732248310488194113077248112, 2069681916294591367388070000, 950007834367710199920, 4097048732248402721984850369183856,
  1005347996220100968560, 1069911600478084399216, 2243767335776137597396451440, 2205081589644646178833301616, 931561050711588339824, 4097048654877104149748816501801072, 922337687470826586224, 1116028500244776878192,
  996124668163711303792, 9698051392036298342025667657679486582896, 9357769593022770752360500055329606729840, 19624665217546889728854327329024264673188380784, 18019011308040625718012686040458237443213099120, 1069911662050735554672, 4502697175777886706465786581483632, 10293546223749731777542347441979388854384,
  10293546304879621648581158408880004268144, 4624391343257627691627772863578224, 2205081626538182704764026992, 18019010542405584099848365167929448963493593200, 4097048964362113971045506721251440, 9868192656626347959767897781978953416816, 4624391343257646138292681742221424, 8592134389144962088936125514435256123504,
  9868193102839281868990542353104122151024, 4908345367851095358947461156569200, 9868193102839281869018212469214686478448, 1953625037611534190070726768, 1953625046834906226925502576, 10293546223749654406225328453075718897776, 2243767335776137597402742896, 21587131220370543216443864295348099882504159344,
  4462132259856683817095842983051376, 8592134470274600503598147460037575966832, 1953625249749091037730570352, 9272698595644402091734568716869505646704, 9783122713933143289493829032109481656432, 8592133780673060835537609056891831320688, 4705521059043505275368718393671792, 9272698433385241319446005189876541030512,
  9868192656626270588570782721913365987440, 8592134470274871302898730815029296234608, 1972967961405859087402401904, 21587131220370908299565273464159286489822265456, 9698051554295652542473039637052928295024, 9868192656626270588663016442281913745520, 1934282390518423174940459120, 8592133821237647929249604592648176271472,
  4015919132519403821129558380249200, 8762275410346309233848679630267194802288, 996124654969584353392, 1033018143117003456624, 1953625185185499973892964464, 9357769349633894194129789125958542819440, 2011653476953058380695470192, 2089024784748635665098342512,
  2340481419792082791420657776, 18019011903534727264816446837335161499799257200, 4908345367850993901912230364971120, 8592134429710052095623060096439503814768, 1953625185185526362172031088, 959231197608490827888, 510173640654960, 4097048828962578971641616854417520,
  8507063432331586720959229716950132195440, 10293546304879447563327697414177865859185, 9272699244681664151203613358585521635441, 9698051554295729913716271539710609850481, 19624665217546889728854327421257923469097566321, 2069681916294538590848811121, 1069911618070283026545, 1125251850291411681393,
  1953625194408885204887273585, 4705521059043468381823396334272626, 9357769593022886809082385669133120307314, 931561011129140379762, 986901243350269034610, 2205081589644610994431852658, 2147053224090085088884162674, 996124641775402877042,
  1014571385849112428658, 1953625185185486779711488114, 2340481382898577051773567090, 1033018147515008024690, 2011653476953058380653527154, 4421567440649242125689385855746162, 1953625074505044327686733938, 1934282279837963130694008946,
  931561077099838046322, 931561085895931068530, 4624391343257664585102726113788018, 2127710374082842039506960498, 523367738245234, 2205081718771916267421958258, 2340481309111552378432127090, 996124606591039176818,
  4462132259856683817060658583699570, 2089024747855085944994529394, 8507063554025966971801264294734768111730, 4381002563413471773174801899716722, 8592134551404393660552942477346105983090, 4097048906333674629552102401114226, 4056484125812052856604562617794674, 8592134145756085530825318434737403986034,
  4097048654877214830178074366050418, 9868192656626270588589229426404629676146, 4421567498677782924248807280476274, 4097048964362224651531939183853682, 4462132259856591583366678315008114, 4705520981672363500461709070434418, 9698051392036298342025667618097047011442, 4705520942986617368970290507284594,
  2321138468327650579584122994, 8592134429709781296138009300710654476402, 4137613512770033718264844573999218, 1116028491448662884466, 4462132143799639113412370984075378, 20338288213193668413167460803236205397154988146, 4056484048440745061080054773055602, 4097049022390608652832704766673010,
  4624391343257627691588190424006770, 2301795692107313456300949618, 1069911640060482027634, 4462132066428525008665452717539442, 4624391420628852476817143133896818, 4705520904300991141328545195753586, 8592133780672673979349119356248782798962, 4705521233128906310228049263591538,
  8592134389145116831487153099930423263346, 4097049003047684858560583993131122, 18019011308040625718090057163786365194406461554, 4705521252471664083843089069768818, 18019010542405949183240573821791457687879286898, 18019011903535254607601541592466863473024827506, 4705521117072082967469063759986802, 4097048945019300857295002782400626,
  9868192575496632174037888024409404342386, 4462132317885141605390495562858610, 9357769593022770752305159836302596636786, 4381002350642564414571777454243954, 4827215439294190512723031582834802, 4056484125811923729484007581155442, 4421567305249697902851886491369586, 431008778289266,
  4462132259856527019740430107410546, 931561011129157156978, 959231127239721484402, 931561015527203668082, 1953625074505000347238400114, 1953625120621869327605301362, 2243767280435896580162191474, 1934282279837923548292186226,
  950007803581378330738, 1069911644458536927346, 4097048828962486737877267816382578, 986901313719029989490, 4381002350642711988515571046023282, 2089024710961685758514036850, 2205081626538178306704932978, 922337630296221941874,
  2243767381892962597298241650, 2243767344999478847925649522, 4705521252471774764232764557361266, 4705520981672298936839858921930866, 8592133780672925435818142093517600587890, 940784435942582648946, 4097048770934001279510485122678898, 1005348040200566079602,
  931561081497913917554, 4097048983704853297986841555763314, 2011653513846577314427568242, 1934282325954845305229803634, 1953625194408911593153757298, 2089024710961698952666153074, 4624391343257609244791340189876338, 931561015527228833906,
  452999036010610, 931561050711600922738, 483785361588338, 4908345000337673866255885035110514, 2089024710961668166353158258, 439804854534259, 4097048828962376057360048984162419, 9783122713933143289595286076136336916595,
  931561024323279913075, 996124641775402877043, 1934282206050969243669758067, 4462132259856628476876815958278259, 2127710466316518427589607539, 1069911631264380616819, 4097048983705037765392394249830515, 931561055109605490803,
  4097048828962486737864073660072051, 922337687470797226099, 10293545736972172089184393851775060279411, 8932416350418056649992917350058121232499, 1953625037611586966593208435, 8592133942931950808627046374075000684659, 931561094692024090739, 532163831267443,
  1953625120621847337360162931, 1014571350664744534131, 1953625175962079558488817779, 9698051554295729913734718283784281653363, 1953625139068609003255758963, 4097048848305198394583744824475763, 4381002621442040241907508480835699, 8592133780672925435855035564072808480883,
  20516695280700133234115504756626084395531370611, 19624665217546889728776956159579259145488957555, 2243767400339768243633782899, 2166395963417004433496604787, 4462132066428423551586241450344563, 4705521194443224742336490633166963, 1895596764290768235457937523, 426610723389555,
  4218743112499097182592453169905779, 4462132259856683817060658583699571, 1069911582885877383283, 4056484048440800401268295436599411, 4705520981672363500444116884390003, 9357769593022770752360499989358888091763, 21587131220370543216443864350688305715326484595, 922337647888387014771,
  986901252146370445427, 9868193102839281868935202129679059255411, 4705520942986617368979086600306803, 996124654969550798963, 9698051392036337027541214848176659366003, 4624391536685804946789042650873971, 1953625185185508769952432243, 18019010542405786923654259644723559235185541235,
  4664956162464977149313861386502259, 8592133780672828721946263757947785969779, 9357769593022770752351276687690777493619, 4097048828962523631383007413141619, 2166396147884453966689337459, 2127710374082842039515349107, 4827215632722275534111156291502195, 2243767261989126118171476083,
  10123404918594940323518647373189827526771, 1953625175962079558499303539, 922337647888393306227, 2089024812418703397123784819, 8677204494097520959685236408167218282611, 4056484009755081939906181583601779, 2243767261989161302543564915, 1953625139068626595452289139,
  1033018129922836660339, 4624391343257793712262863583707251, 2069681916294564979100614771, 931561063905713193075, 2243767344999536022515613811, 1033018156311115726963, 2243767372669652133079941235, 20338288213193749542786532744378028505140559987,
  1953625212855629278569562227, 4543261859585572037442712247468147, 1992310829859938569444917363, 8592134145756143559089415947402392633459, 532163845947507, 8762275410346309233922466597765914820723, 986901243350285811827, 931561015527203668083,
  1953625074505004745284911219, 2243767280435896580162191475, 1014571377053036183667, 4705521155757561621153821356982387, 986901282932704411763, 2340481382898577051790344307, 4624391343257793712276057725337715, 9698051392036298341914987180043077156979,
  4097048828962486737864073676849267, 1953625037611556180284407923, 950007803581378330739, 2127710374082824447337693299, 4624391343257775265562770341363827, 8592134470274600503588924136379213938803, 527765801533555, 931561112284226912371,
  1953625194408823632215146611, 4218743112499115629354119078084723, 461795108061299, 2089024812418720989316120691, 1014571385849133400179, 2243767372669625744807166067, 2089024812418773765874253939, 903890886222506098803,
  1005347978627908632691, 2166396000310435406329938035, 9698051554295420428669556724086633136243, 1953625037611534190058143859, 1953625046834906226912919667, 4705521039700701384880300161499251, 1005348013812280721523, 4462131989057189542980853858041971,
  1069911644458543218803, 1097581760569107546227, 2011653624527041756678586483, 2089024812418685804948226163, 2243767372669590560439271539, 1953625120621882521753223283, 1953625111398536873177514099, 4218743441326892447717050793590899,
  2069681916294503406462042227, 1953625111398475300528455795, 1033018094738477154419, 1972967878395484367421964403, 1097581760569111740531, 1033018094738479251571, 4624391343257618468167775078580339, 4381002350642601307976362010607731,
  986901243350298394739, 894667527379797147763, 1069911604876130910323, 2205081589644646178833301619, 9698051554295517142642892204838393741427, 1934282279837945538537324659, 19624665217546889728854327439704698329120112755, 1953625212855616084444708979,
  8592134226885956059004898742571343282291, 950007803581390913651, 1014571412237420855411, 2340481438238835661210648691, 1069911657652689043571, 996124694551990370419, 1934282325954845305229803635, 1033018182699409473651,
  4097048654877187160136730613383283, 2011653633750413793539653747, 1953625037611499005694443635, 1953625175962079558516080755, 9187627841654832618382040806323898024051, 2127710540103446343947649139, 2069681897847776924942729331, 9187627841654832618225243499289552879731,
  1934282242944426604794740851, 2089024812418703397140562035, 1934282325954774936487723123, 4097048945019263963754078828232819, 1953625037611534190066532467, 4624391343257627691566200214519923, 1953625111398510484904738931, 1014571385849143885939,
  4705521059043615955806772367720563, 2243767289659290607264202867, 2089024784748631267041345651, 9698051959943902643899672758014061838451, 2127710466316531621760598131, 2243767372669652133096718451, 1069911644458551607411, 2340481281441511034681557107,
  4056483796984137687771029270691955, 4178178506062655083645728536395891, 532163862724723, 4097048945019227070323106015871091, 8592134713663593118513850611821797441651, 19267852443664847539577777282065344022701932659, 4097048828962357610602781174923379, 9272699244681451380167127463482223493235,
  1972967878395449183062458483, 1953625074504987153121935475, 4664956413921547629081962966155379, 2166396074097394108998877299, 1934282325954757344310067315, 2243767372669590560453951603, 1953625194408823632234020979, 1116028443070182719603,
  2069681897847776924951117939, 2089024747855099139165519987, 1005347996220111454323, 1033018112330675781747, 4502696885635846796213440496009331, 2069681916294538590846713971, 2089024812418720989334995059, 1992310765296294729068052595,
  2069681916294564979125780595, 8847345555863377826955873679461448679539, 1953625139068652983756521587, 2089024840088863488178389107, 2340481438238822467081601139, 1953625212855629278594728051, 21587130114452688464155714323117733351293714547, 4705520981672243596673608501428339,
  4097048809619609060447739153743987, 4178178506062710423877949673439347, 18019011308040828542070036949381548457808887923, 9868193102839281868852191842920048885875, 1972967878395537143992680563, 8592134145756066187901524215393220034675, 1953625120621952890512081011, 9868192656626270588570782664738767634547,
  4705521059043569838915801778749555, 4908345000337673866203108476977267, 9783122713933143289493828979332929814643, 959231127239746650227, 4462132066428414328152631982162035, 4624391343257646138297079795023987, 2205081589644624188613329011, 9868193305663377905396566136930477015155,
  1069911618070283026547, 4624391343257710701932124104032371, 483785361588339, 2340481401345329921618083955, 4705520981672372723864532284342387, 2205081626538151918451032179, 4908345213108553554835157892989043, 8592134186320943423690323403682151923827,
  931561077099879989363, 8592133780672673979293779132823780720755, 1953625074505061919914721395, 18019011903535051783563533515104121802884907123, 17840605516594334925030627658900092228481319027, 4908345077708917098237707547574387, 9868192656626270588626122971726686978163, 9357769349633700766035544299826288001139,
  10123404918594940323518647373189858984051, 2166396074097394109005168755, 1033018094738496028787, 2108367680872752092893151347, 2205081589644615392524501107, 2243767252765771673534201971, 2243767261989161302575022195, 1005348013812303790195,
  1992310765296294729074344051, 4218743112499115629371711289294963, 1934282362848307064386617459, 4381002621441920338093019647443059, 9272699001292748907402015068068782276723, 2166396147884445170638258291, 4421567247221258561323297862058099, 1953625120621851735402479732,
  4097048828962440620959908921081972, 452998994067572, 996124641775402877044, 4705521155757561621153821340205172, 986901282932687634548, 986901291728780656756, 931561068303745024116, 4705520981672262043417682171134068,
  986901313719013212276, 1953625194408902797031374964, 4502697079063996381364152816369780, 968454591635536216180, 2011653476953001206057271412, 1005347978627893952628, 996124654969550798964, 483785328033908,
  4705521155757524727674470022512756, 4664956239836275721492720655532148, 1069911640060482027636, 1005348053394684641396, 1069911662050714583156, 1069911684040947138676, 2069682017751595811851993204, 1069911582885883674740,
  1953625129845236966411468916, 1014571368256941064308, 4908345329165423014419143271121012, 1953625175962097150685347956, 1116028460662343598196, 1992310765296294729042886772, 1060688246033400987764, 9868192859450405310815171721924851007604,
  1953625056058317846177906804, 4097049022390553312622473876865140, 2301795784341051417041043572, 1895596690503805134769750132, 9698051554295420428669556794455368925300, 4705520981672298936839858909347956, 931561015527203668084, 2205081626538112336007266420,
  1069911631264397394036, 4624391343257609244839718676332660, 931561055109622268020, 1116028500244764295284, 492581429444724, 1934282242944483779384705140, 4097049003047832432513173677932660, 1953625120621930900256456820,
  2243767381892962597298241652, 9442839697975058823532326388983761207412, 2340481281441449462028304500, 9698051554295575171082233671854407549044, 444202930405492, 20338288213193911802218104315078104843479416948, 4705520981672308160238284055773300, 2127710374082793661024698484,
  4502697175777886706435000255905908, 21230318871841459678379079203835115451401109620, 931561059507681362036, 4097049003047721752026741200650356, 9868192859450405310704491253084561866868, 996124668163711303796, 2011653633750387405260587124, 492581442027636,
  1914939466724129063928070260, 4097048828962486737877267828965492, 2011653476953075972868931700, 9442839738539839345329343475592529444980, 18019011903535051783505505112656107749905530996, 1060688290013880778868, 2089024710961676962433597556, 9868193305663455276750478627175699316852,
  4056484125811923729484007602126964, 2205081626538182704764026996, 1014571447421792944244, 532163860627572, 2069681916294503406470430836, 1953625046834871042553413748, 8421992840601216705447706012042091561076, 4015919132519357704264976053567604,
  2127710410976237827984982132, 20338288213193830672560346978292896931099181172, 1033018094738485543028, 2011653624526953795760947316, 4381002428013973667140312217157748, 1116028443070178525300, 2243767215872283526104612980, 931561019925269053556,
  1934282325954774936491917428, 2089024710961628583928266868, 1953625028388162153215950964, 2069681916294538590842519668, 9698051554295478457044334639621234229364, 1005348013812293304436, 1033018129922857631860, 4908345135737301099494492658991220,
  8592134145756066187975311165299774980212, 2069681916294591367400652916, 931561090294013231220, 2340481382898616634227818612, 9868192737756121774149386734935962812532, 2243767381893050558234755188, 2011653633750413793545945204, 532163866919028,
  931561006731135811700, 9357769593022770752360500015747200712820, 4097048828962357610655557735153780, 894667571360274841716, 4381002428013899880221191989887092, 4908345077708815641145302145040500, 1014571425431572971636, 4097048828962523631374211353673844,
  4097049022390580982681409868005492, 4908345367851040018715240038400116, 1953625037611534190081212532, 1014571385849158566004, 2243767381892997781687107700, 488183412293748, 931561068303795355764, 9187627841654716561401900775488440238196,
  1116028491448667078773, 17305387461688051425598244827463185749216591989, 4097048828962357610602781162340469, 8592134389144962089000689101101045121141, 1953625120621856133476253813, 9698051554295768599314829100529714462837, 2205081626538099141878218869, 1023794735895761911925,
  4624391420628852476773162687660149, 4056484009755174173613356004409461, 10293546142620306133704673799448331026549, 9272699122987109815154234703457556627573, 4097049003047813985725119513755765, 1069911618070268346485, 18019011903535416866684942730032102623764545653, 9357769917541440467610569579878942769269,
  4340437570120979535068404643790965, 2089024784748653257269706869, 9187627841655064732130183531049512861813, 4381002505385069325244311835508853, 4097048983704853297916472813682805, 8592133821237493186707800396782018494581, 4056484009755174173622152101625973, 1014571412237422952565,
  2205081626538151918440546421, 2243767252765833246170677365, 2127710337189265931193286773, 931561028721362075765, 1953625074504987153119838325, 444202938794101, 922337647888416374901, 4381002737498835914550383453667445,
  9783122713933143289576839336460711624821, 2089024710961681360488497269, 10293546304879447563327697449362235850869, 4705521155757524727626091502502006, 4421567556706277605970034647105654, 1953625203632222057328017526, 1934282279837945538507964534, 4908345077708824864490950678806646,
  1953625212855616084415348854, 483785319645302, 4218743421984023993646364797960310, 2205081718771872286956847222, 9783122795062975132286989313981672325238, 1069911662050706194550, 2243767317329446300215672950, 8592134145756085530677744504137960128630,
  4705520981672400393971846722093174, 4624391536685758829928858376994934, 8592134389145348945235295723500972540022, 1953625203632252843661983862, 903890960989282107510, 4908345097051610308235295197233270, 9357769593022770752351276683292730982518, 1116028517836941951094,
  4381002428013945997103366462767222, 9357769025115475935293402119650978824310, 4097048828962357610602781151854710, 9868193102839204497728863631605927772278, 9783122795062975132286989248010991435894, 10293546223749925205673485707880538570870, 2147053187196596941481836662, 1097581716588636143734,
  8592133942931950808562482730234615431286, 8592133942931950808636269715325546659958, 4462132143799740570513572488020086, 9187627841655064732139406889892217618550, 2224424587225947370990600310, 894667593350482231414, 2243767289659321393575100534, 4381002350642711988511172999512182,
  2089024710961676962421014646, 1934282279837989518989852790, 2089024710961602195642908790, 1953625037611534190064435318, 922337665480594030710, 9442840144188031418261294835743873564790, 4097048848305345968553926712098934, 931561085895960428662,
  4097048732248282818165963449434230, 931561028721326424183, 2127710466316496437357052023, 1069911618070241083511, 986901282932687634551, 996124654969542410359, 4705521291157336428340620600279159, 1069911640060473639031,
  8592134389144962088843891851241277358199, 1005348053394676252791, 9698051959943709215805427918687636029559, 959231197608448884855, 1033018173903287091319, 1953625194408902797031374967, 2205081626538169510595133559, 931561094692024090743,
  532163831267447, 4218743441326864777539367561330807, 4462132259856656146944548019372151, 1051464838812167831671, 4381002428013945997024201625567351, 9698051554295497799977352274982742261879, 431008769900663, 8762275410346309233848679630267161247863,
  8507063635155528015063256947082183835767, 1934282362848280676069802103, 8592134186321136851683111146205063676023, 1069911662050714583159, 510173607100535, 1953625120621847337370648695, 1069911582885883674743, 2243767215872283526083641463,
  2089024747855099139140354167, 1014571368256941064311, 1953625175962097150685347959, 1033018129922836660343, 9698051554295652542473039610664628256887, 931561015527203668087, 2011653633750339026736382071, 931561024323296690295,
  922337678674720981111, 996124654969559187575, 483785336422519, 4827215632722275534168330898243703, 931561059507668779127, 950007803581378330743, 986901291728797433975, 4624391343257719925308558980153463,
  4624391343257775265540780108808311, 931561077099854823543, 4421567440649242125711376105078903, 931561081497901334647, 959231197608465662071, 9783122713933143289595286146505097871479, 940784422748443115639, 2127710337189314309698617463,
  4624391343257627691588190444978295, 922337691868873097335, 996124668163711303799, 922337705063012630647, 986901309320996061303, 1934282307508088037380718711, 2340481438238835661210648695, 2011653633750400599400120439,
  1033018094738485543031, 2069681916294520998656475255, 8592134145756414358592913390447915696247, 2243767381892997781676621943, 1953625194408858816601915511, 1992310765296321117342924919, 922337705062983270521, 1051464838812167831673,
  4827215632722349321135829635039353, 514571674583161, 1992310765296347505615700089, 2011653633750413793539653753, 1876253923506747689358327930, 1023794797468394193018, 931561059507681362042, 488183395516538]

/-- A modulus under which all codes of the dictionary are distinct (used only in proofs). -/
def englishModulus : Nat := 212706

end KC.Bip39.DictData
