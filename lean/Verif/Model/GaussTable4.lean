/-!
The literals of `Util/Gauss_Legendre_Nodes_and_Weights.hpp` for 111 to 128 nodes, in the order of the
assignments, as numerators over `10^129` (no literal has more decimals). No import.
-/

namespace Verif.Gauss

/-- `case 111` (Util/Gauss_Legendre_Nodes_and_Weights.hpp:30318-30822), `nodes`. -/
def nodes111 : List Int := [
  -999767422509164291636450881914727977459970664331235327381004147643019585532866076027001723845318409276314844365060868833574849440,
  -998774765833261225426604935006083828983257704528608978991227900654124587801035349218538919028046806704947834733321102114257913120,
  -996989727448889836124799082175076076760381826497303380303905344330733889507876109173907407778254108422015519144510417090176660260,
  -994413327510508588282813984849626627158416319485094349527112561734358249172783965847271533712374113025558071169554292236946516680,
  -991047562585975629866603298075672010087979434647514173353318290817694080664917069527526408606007318221180797832293773939885648360,
  -986895092864000755485967212365547859022973952578991591757175712022706225653332631681558854406336174416164648905507017947018492920,
  -981959210778891748474971071529301508735712497469417494973599462603270925199363423832276636826672037407889153603103977894216868240,
  -976243832942023283757251441909065256431792446521077512812179899560578006685642941760675864410872060065999061398933146321217319150,
  -969753495582692505160909462208437250017630892082615615697636151880915478048252156153599879174074632563702489242043321057077852240,
  -962493350464792066398225180018379396836506785056674271813787554024428392211919916390910902551943142384718096596532037075976168360,
  -954469160609565123037905920312230073056359217551029352387738559200068710910199780180325481367230250766408212300911383616325599550,
  -945687295638784849488840328460251392960808544826565354597154677101584699407862628180480928503828059427508678571000859294744913360,
  -936154726679197654795692149566417340243371119923792437193011952656126453542698479012920459790801014649923618564302909542625615360,
  -925879020808546338932171519411705766850609570427492247858858330520941558876230192200648778992202927489968761946677069859551235770,
  -914868335037686337752191398141871722875509123803179982024085726857134514719452603340162108079099114568960089512678474628510712790,
  -903131409829099486479733791407677667205829384969026574971508823852052578891577699751494416907555770364168764580290854454046779460,
  -890677562154789827848964356501513336244534434368079205258821820859115862565906276433880318180522959604090851582049588633397586670,
  -877516678097968438002234094049711641338063989285233971267968670488475298243919121736839095196455022086432539305193158661407137660,
  -863659205003808672225514952038475028001167153452266163754558439098555212464494767194206744748933066536238752589836030192112064140,
  -849116143185172337850851879133157639848256350254957619496732101699176358574931557582130819565240199209100663780185798765563540170,
  -833899037189699641901617224144809090276457245326217050212817842521095227743096281370648955918159175384218695168563283354756612110,
  -818019966635080901864047457430122920766258244375545634950697712508310611099389951479973008146226342141912912288582963983959428020,
  -801491536619714827081152395919827599140798601162673933233073980859790254643401573726538793278529417298456550097649823226884229940,
  -784326867716321213875031483715340769396640160605532132606285698444471330353126315588858423892164010731096044683554263158574237460,
  -766539585556422690560929524550186431449751434548880691338157303819360198914768359013888854840988974594176850680543644729314276470,
  -748143810013944692157375661484707062194716548046692020112645787464106929260475959728325170267179459282890815181485817154329146370,
  -729154143996507270965002332974384002233338694925494482545677265542267497141643079316646177240519669561537547137703114174087539220,
  -709585661853297784504261922230407169377829052032658244430514860004236532549391256826714706582152689289120546659432250162945126670,
  -689453897408720514617400606667332107867391437266119754127975358169353624142883843999276296812099263623773774007269331617788379270,
  -668774831631318112204851883924775920498466492990224563720435700451776866635669296189307141941734162633768258050057853358961189890,
  -647564879947750499534014863173706905300768553864761407786004273811272997124078681924236343647574556864999581650964351795407755710,
  -625840879211899457885517575273509167870351706800288946229915684565717192021074266593202063566134574420093775410696619724501556200,
  -603620074339441481329892778908188531058937518697462933869667902371441914703440946340325099870301507207171537883182247180384705160,
  -580920104618497450030689224536374804045376215866129685509688051371197937399139813925993560253283372321778428523683299573682075830,
  -557758989707225110475400205028905908358426868044418809728779518243148563035026657662158035161545640853663032165264179524931013440,
  -534155115329469076571901892378722694097552436885033283661997567644306937225781256735297786354817557930821849456449703927688338840,
  -510127218679822911260267475462949699311649002297208538734045716965506662960535752135774189971933157075131905146355665293137590640,
  -485694373549688639338189383043446989104538497265329468680656538255968230900261739046404523354782451413671204329461980149973266560,
  -460875975186140606884725772801603191535004719771622339483644707918058888688371840114933310670222205541723951331986058186081816380,
  -435691724895612773196654129878717700411145301103655456551816838343240608056932344840543678908667079554013750858183293229969216450,
  -410161614404631134840652289308576464315413648785642337023464170172840904756609098088461003534439692451418294959392389870927482760,
  -384305909990005881549374554986189260716189849913498021926439731841717791556774964857196995313120781491109503691416932471308584850,
  -358145136391080920098840781509386889860404006739858459024830120186535778236247771818105096843015869715704984513155756686297824180,
  -331700060516811431871824076237519916021992157172130879255775396759009063496696445607928400315843718800281795142074736062732597930,
  -304991674960603016779578808922443572271491728575488833695539036629119624415439627037109260955448709341896221711337510328086282180,
  -278041181335998592462555572587076412573238449301589359015970285331683411611138985892972404976940059646804178402084011348197745520,
  -250869973446441442952829682008227856512523214120158603794313017145963425817374306184676261685718407601766878901535478465675052030,
  -223499620302474533018818848780809373270884722876193644204431065063202238457888968017885840498482786120870965436377497793234848150,
  -195951848999857319164108833299785341591435469649343566138022137081739297051458956710089686549181207131606518914040377027876983300,
  -168248527472191699954308190537773054950167973582772463169231714831611461593780123617128896356389106382774577699076654391025050390,
  -140411647131748369642358476359108462360667259138795951091436828891890407916700401263419180522670462149353038117989301135654441700,
  -112463305412273591094689682297558047489790591065699584811179586311744245937972319033855040161711666078940083529163088403606310320,
  -84425688227634216505424787829909113075510923204055543665632133359125522148452569592943825982230759612583197588660652636864520614,
  -56321052360225595684987967230694427309744127775290947886791195151741202187412420160437284219774802534715864190744100036861884438,
  -28171707793122768886301563037190957159653527652408446503198448505623847365618244850055186265336811925112133815858060791103914004,
  0,
  28171707793122768886301563037190957159653527652408446503198448505623847365618244850055186265336811925112133815858060791103914004,
  56321052360225595684987967230694427309744127775290947886791195151741202187412420160437284219774802534715864190744100036861884438,
  84425688227634216505424787829909113075510923204055543665632133359125522148452569592943825982230759612583197588660652636864520614,
  112463305412273591094689682297558047489790591065699584811179586311744245937972319033855040161711666078940083529163088403606310320,
  140411647131748369642358476359108462360667259138795951091436828891890407916700401263419180522670462149353038117989301135654441700,
  168248527472191699954308190537773054950167973582772463169231714831611461593780123617128896356389106382774577699076654391025050390,
  195951848999857319164108833299785341591435469649343566138022137081739297051458956710089686549181207131606518914040377027876983300,
  223499620302474533018818848780809373270884722876193644204431065063202238457888968017885840498482786120870965436377497793234848150,
  250869973446441442952829682008227856512523214120158603794313017145963425817374306184676261685718407601766878901535478465675052030,
  278041181335998592462555572587076412573238449301589359015970285331683411611138985892972404976940059646804178402084011348197745520,
  304991674960603016779578808922443572271491728575488833695539036629119624415439627037109260955448709341896221711337510328086282180,
  331700060516811431871824076237519916021992157172130879255775396759009063496696445607928400315843718800281795142074736062732597930,
  358145136391080920098840781509386889860404006739858459024830120186535778236247771818105096843015869715704984513155756686297824180,
  384305909990005881549374554986189260716189849913498021926439731841717791556774964857196995313120781491109503691416932471308584850,
  410161614404631134840652289308576464315413648785642337023464170172840904756609098088461003534439692451418294959392389870927482760,
  435691724895612773196654129878717700411145301103655456551816838343240608056932344840543678908667079554013750858183293229969216450,
  460875975186140606884725772801603191535004719771622339483644707918058888688371840114933310670222205541723951331986058186081816380,
  485694373549688639338189383043446989104538497265329468680656538255968230900261739046404523354782451413671204329461980149973266560,
  510127218679822911260267475462949699311649002297208538734045716965506662960535752135774189971933157075131905146355665293137590640,
  534155115329469076571901892378722694097552436885033283661997567644306937225781256735297786354817557930821849456449703927688338840,
  557758989707225110475400205028905908358426868044418809728779518243148563035026657662158035161545640853663032165264179524931013440,
  580920104618497450030689224536374804045376215866129685509688051371197937399139813925993560253283372321778428523683299573682075830,
  603620074339441481329892778908188531058937518697462933869667902371441914703440946340325099870301507207171537883182247180384705160,
  625840879211899457885517575273509167870351706800288946229915684565717192021074266593202063566134574420093775410696619724501556200,
  647564879947750499534014863173706905300768553864761407786004273811272997124078681924236343647574556864999581650964351795407755710,
  668774831631318112204851883924775920498466492990224563720435700451776866635669296189307141941734162633768258050057853358961189890,
  689453897408720514617400606667332107867391437266119754127975358169353624142883843999276296812099263623773774007269331617788379270,
  709585661853297784504261922230407169377829052032658244430514860004236532549391256826714706582152689289120546659432250162945126670,
  729154143996507270965002332974384002233338694925494482545677265542267497141643079316646177240519669561537547137703114174087539220,
  748143810013944692157375661484707062194716548046692020112645787464106929260475959728325170267179459282890815181485817154329146370,
  766539585556422690560929524550186431449751434548880691338157303819360198914768359013888854840988974594176850680543644729314276470,
  784326867716321213875031483715340769396640160605532132606285698444471330353126315588858423892164010731096044683554263158574237460,
  801491536619714827081152395919827599140798601162673933233073980859790254643401573726538793278529417298456550097649823226884229940,
  818019966635080901864047457430122920766258244375545634950697712508310611099389951479973008146226342141912912288582963983959428020,
  833899037189699641901617224144809090276457245326217050212817842521095227743096281370648955918159175384218695168563283354756612110,
  849116143185172337850851879133157639848256350254957619496732101699176358574931557582130819565240199209100663780185798765563540170,
  863659205003808672225514952038475028001167153452266163754558439098555212464494767194206744748933066536238752589836030192112064140,
  877516678097968438002234094049711641338063989285233971267968670488475298243919121736839095196455022086432539305193158661407137660,
  890677562154789827848964356501513336244534434368079205258821820859115862565906276433880318180522959604090851582049588633397586670,
  903131409829099486479733791407677667205829384969026574971508823852052578891577699751494416907555770364168764580290854454046779460,
  914868335037686337752191398141871722875509123803179982024085726857134514719452603340162108079099114568960089512678474628510712790,
  925879020808546338932171519411705766850609570427492247858858330520941558876230192200648778992202927489968761946677069859551235770,
  936154726679197654795692149566417340243371119923792437193011952656126453542698479012920459790801014649923618564302909542625615360,
  945687295638784849488840328460251392960808544826565354597154677101584699407862628180480928503828059427508678571000859294744913360,
  954469160609565123037905920312230073056359217551029352387738559200068710910199780180325481367230250766408212300911383616325599550,
  962493350464792066398225180018379396836506785056674271813787554024428392211919916390910902551943142384718096596532037075976168360,
  969753495582692505160909462208437250017630892082615615697636151880915478048252156153599879174074632563702489242043321057077852240,
  976243832942023283757251441909065256431792446521077512812179899560578006685642941760675864410872060065999061398933146321217319150,
  981959210778891748474971071529301508735712497469417494973599462603270925199363423832276636826672037407889153603103977894216868240,
  986895092864000755485967212365547859022973952578991591757175712022706225653332631681558854406336174416164648905507017947018492920,
  991047562585975629866603298075672010087979434647514173353318290817694080664917069527526408606007318221180797832293773939885648360,
  994413327510508588282813984849626627158416319485094349527112561734358249172783965847271533712374113025558071169554292236946516680,
  996989727448889836124799082175076076760381826497303380303905344330733889507876109173907407778254108422015519144510417090176660260,
  998774765833261225426604935006083828983257704528608978991227900654124587801035349218538919028046806704947834733321102114257913120,
  999767422509164291636450881914727977459970664331235327381004147643019585532866076027001723845318409276314844365060868833574849440]

/-- `case 111` (Util/Gauss_Legendre_Nodes_and_Weights.hpp:30318-30822), `weights`. -/
def weights111 : List Nat := [
  596845810059268920570441411555248779023253827623760065733083669733686861779854670567840000000000000000000000000000000000000000,
  1388883640105502763344013249747797360313665798076382663108628788964740379121019363727500000000000000000000000000000000000000000,
  2180992681432088204495304068475586740093855002051499673715400295756097003849709557821400000000000000000000000000000000000000000,
  2971472387045450575477997101561205310033800195767996545769336118915089916948666251037000000000000000000000000000000000000000000,
  3759613764904007610727945123298386707934701236716506738159181215058230068338905583997000000000000000000000000000000000000000000,
  4544776829814801063212783364710565764033478171397453108870491672589148373713587707081000000000000000000000000000000000000000000,
  5326334500516593646732242007356261603681240974675360888644267817919477864087396165394000000000000000000000000000000000000000000,
  6103665068112573166386448194197691157011081462565702318169453535060606333243625653273000000000000000000000000000000000000000000,
  6876150952293447487705672075985894867126206632486584069484805995418806484782713417169000000000000000000000000000000000000000000,
  7643178702468804878550727840807000671999994146066988460096961885336775821584429243252000000000000000000000000000000000000000000,
  8404139319469314580017482564658714133863763954230495647217347451929480233023603753007100000000000000000000000000000000000000000,
  9158428675077558359616664676546524633938161997503737213693533342046920879244794026927200000000000000000000000000000000000000000,
  9905447964173201181721816192055026133237271811811758751534717676405878221199840977951800000000000000000000000000000000000000000,
  10644604167287882062707719953890524740035807386363439780474274780861793057163837701685700000000000000000000000000000000000000000,
  11375310514972725984238915544805349229352124509591479474494838494831473172545833121074570000000000000000000000000000000000000000,
  12096986950215717213199512255667735817859675399356287424658187581890523425976739219928290000000000000000000000000000000000000000,
  12809060587033579985948306964730400487903966205153852071250313255829483167096528714477670000000000000000000000000000000000000000,
  13510966164160497600507157001085134853507891831143581524595563636781650654914889720483460000000000000000000000000000000000000000,
  14202146493117317606336903504120732661099472808841113576148217269278543925919732784060945000000000000000000000000000000000000000,
  14882052900119348534891135108064333777012427953385680750586014739658902809787142405402086500000000000000000000000000000000000000,
  15550145661370603587261490872988629359901071281201173993167458871118846725449288246433513100000000000000000000000000000000000000,
  16205894431341787407326970077958197034923020634810841579229329215985921870511705383891067350000000000000000000000000000000000000,
  16848778663658780336728316937319423759083958586958909442628563568809514030229074841449085210000000000000000000000000000000000000,
  17478288024247590723229682560743736308127796119018545731839703702173255569697191922837702957000000000000000000000000000000000000,
  18093922796395579206047602481232470957595700802428174904338502532647149568667605624802132141500000000000000000000000000000000000,
  18695194277399721753449142689841056941867146782715072193663919530353178111530828891315487076800000000000000000000000000000000000,
  19281625166482111263073327412795530210986638726879985632344144560203504557173440599824288312790000000000000000000000000000000000,
  19852749943661536413460100717355870947295880062939781849406499390278641691399256705780722258584000000000000000000000000000000000,
  20408115239278234676011516547056076755814705034529058798752968137139721720390330467454035976809600000000000000000000000000000000,
  20947280193877031048763963527066221370666555293051328031894192972842407981621039355370787237641200000000000000000000000000000000,
  21469816808162183127674923904372150402686237791136560012584694356917761722023661017406875258207980000000000000000000000000000000,
  21975310282745437525657400021515321069649992450528516256806066998019997987708337673761288605613551000000000000000000000000000000,
  22463359347417109766782877203073571142068828904562737675641889496302600849367436713505566337746922100000000000000000000000000000,
  22933576579678456842863082838594347626149350703977451417434459767895272020309471410980093999260949380000000000000000000000000000,
  23385588712282233480059686309648784922453306358305431895902157924223973874909001649274211475304115708000000000000000000000000000,
  23819036929537116952504541664018287615346924470329515756800279428667368474394017646565796992837118689500000000000000000000000000,
  24233577152140653197489898135094288398346246353059617376920073286525700062628608949004083866796123956820000000000000000000000000,
  24628880310314518025927682568353353183723037375030472918076683256499339495955936458706553843021031156099000000000000000000000000,
  25004632605025198246944076673206283773956497936117192814995363205974874830129738725413318724348064022317500000000000000000000000,
  25360535757082673956429972492431293350855558105079838098625896698709217181093085917701869103745539683097020000000000000000000000,
  25696307243919319492445649751263440204946588843089696149391653077555579867541587763469455870992942286229462000000000000000000000,
  26011680523861030337550856786634394677137962527271029461134927161205922020524483941635407417206970472855268500000000000000000000,
  26306405247712519729380567587472291548049900018776307888517293261051943712103681575901800427141085740839334452000000000000000000,
  26580247457488804714293854835342927583572447350684741832821901739699991962254886161173494311226178259612218759600000000000000000,
  26832989772135109330797079627045955279227479223723609276469345959961364835538667400730785776575530584418998287110000000000000000,
  27064431560087744786819856297432213532684226479859841856957650590638540437895118080384357287146612446452752378334000000000000000,
  27274389098538974951370288496605011393886877654466289286239104515604339048998114059615780128700173461796342985746640000000000000,
  27462695719279432110133545376452407881125840989047990943774354012373927394210322158431761211176096007750483428591519000000000000,
  27629201941002304495149163043326972379736834924780698495889542732083636677655429562341325765546758738265449467167972600000000000,
  27773775587964265235155182311167845640578036168236217861509092774809631733257391149961428102312431886561330836024420676000000000,
  27896301894908943631468160543514034616272543925153331135493701716417473245276186297210834177487203388857062109534318164800000000,
  27996683598169645505497873095581350786445669792956449428465670236087301524830184951734718243543771237441240414971255633958000000,
  28074841012879001176216314708998080184986345047750404482702270374678359535732544769792121884868319831352299201757088349457700000,
  28130712096224248734543808493240741401510234440347584371811353776364914379039382901017137269579336263090242550919107664086640000,
  28164252496697937959069172871803854750205242081858272628072903273881373351136094080657573795040742953351723735477811568853020900,
  28175435589304957692066364672266935158146950909055335546583537344060286588988033812286944562088661091147517106275907344209086251,
  28164252496697937959069172871803854750205242081858272628072903273881373351136094080657573795040742953351723735477811568853020900,
  28130712096224248734543808493240741401510234440347584371811353776364914379039382901017137269579336263090242550919107664086640000,
  28074841012879001176216314708998080184986345047750404482702270374678359535732544769792121884868319831352299201757088349457700000,
  27996683598169645505497873095581350786445669792956449428465670236087301524830184951734718243543771237441240414971255633958000000,
  27896301894908943631468160543514034616272543925153331135493701716417473245276186297210834177487203388857062109534318164800000000,
  27773775587964265235155182311167845640578036168236217861509092774809631733257391149961428102312431886561330836024420676000000000,
  27629201941002304495149163043326972379736834924780698495889542732083636677655429562341325765546758738265449467167972600000000000,
  27462695719279432110133545376452407881125840989047990943774354012373927394210322158431761211176096007750483428591519000000000000,
  27274389098538974951370288496605011393886877654466289286239104515604339048998114059615780128700173461796342985746640000000000000,
  27064431560087744786819856297432213532684226479859841856957650590638540437895118080384357287146612446452752378334000000000000000,
  26832989772135109330797079627045955279227479223723609276469345959961364835538667400730785776575530584418998287110000000000000000,
  26580247457488804714293854835342927583572447350684741832821901739699991962254886161173494311226178259612218759600000000000000000,
  26306405247712519729380567587472291548049900018776307888517293261051943712103681575901800427141085740839334452000000000000000000,
  26011680523861030337550856786634394677137962527271029461134927161205922020524483941635407417206970472855268500000000000000000000,
  25696307243919319492445649751263440204946588843089696149391653077555579867541587763469455870992942286229462000000000000000000000,
  25360535757082673956429972492431293350855558105079838098625896698709217181093085917701869103745539683097020000000000000000000000,
  25004632605025198246944076673206283773956497936117192814995363205974874830129738725413318724348064022317500000000000000000000000,
  24628880310314518025927682568353353183723037375030472918076683256499339495955936458706553843021031156099000000000000000000000000,
  24233577152140653197489898135094288398346246353059617376920073286525700062628608949004083866796123956820000000000000000000000000,
  23819036929537116952504541664018287615346924470329515756800279428667368474394017646565796992837118689500000000000000000000000000,
  23385588712282233480059686309648784922453306358305431895902157924223973874909001649274211475304115708000000000000000000000000000,
  22933576579678456842863082838594347626149350703977451417434459767895272020309471410980093999260949380000000000000000000000000000,
  22463359347417109766782877203073571142068828904562737675641889496302600849367436713505566337746922100000000000000000000000000000,
  21975310282745437525657400021515321069649992450528516256806066998019997987708337673761288605613551000000000000000000000000000000,
  21469816808162183127674923904372150402686237791136560012584694356917761722023661017406875258207980000000000000000000000000000000,
  20947280193877031048763963527066221370666555293051328031894192972842407981621039355370787237641200000000000000000000000000000000,
  20408115239278234676011516547056076755814705034529058798752968137139721720390330467454035976809600000000000000000000000000000000,
  19852749943661536413460100717355870947295880062939781849406499390278641691399256705780722258584000000000000000000000000000000000,
  19281625166482111263073327412795530210986638726879985632344144560203504557173440599824288312790000000000000000000000000000000000,
  18695194277399721753449142689841056941867146782715072193663919530353178111530828891315487076800000000000000000000000000000000000,
  18093922796395579206047602481232470957595700802428174904338502532647149568667605624802132141500000000000000000000000000000000000,
  17478288024247590723229682560743736308127796119018545731839703702173255569697191922837702957000000000000000000000000000000000000,
  16848778663658780336728316937319423759083958586958909442628563568809514030229074841449085210000000000000000000000000000000000000,
  16205894431341787407326970077958197034923020634810841579229329215985921870511705383891067350000000000000000000000000000000000000,
  15550145661370603587261490872988629359901071281201173993167458871118846725449288246433513100000000000000000000000000000000000000,
  14882052900119348534891135108064333777012427953385680750586014739658902809787142405402086500000000000000000000000000000000000000,
  14202146493117317606336903504120732661099472808841113576148217269278543925919732784060945000000000000000000000000000000000000000,
  13510966164160497600507157001085134853507891831143581524595563636781650654914889720483460000000000000000000000000000000000000000,
  12809060587033579985948306964730400487903966205153852071250313255829483167096528714477670000000000000000000000000000000000000000,
  12096986950215717213199512255667735817859675399356287424658187581890523425976739219928290000000000000000000000000000000000000000,
  11375310514972725984238915544805349229352124509591479474494838494831473172545833121074570000000000000000000000000000000000000000,
  10644604167287882062707719953890524740035807386363439780474274780861793057163837701685700000000000000000000000000000000000000000,
  9905447964173201181721816192055026133237271811811758751534717676405878221199840977951800000000000000000000000000000000000000000,
  9158428675077558359616664676546524633938161997503737213693533342046920879244794026927200000000000000000000000000000000000000000,
  8404139319469314580017482564658714133863763954230495647217347451929480233023603753007100000000000000000000000000000000000000000,
  7643178702468804878550727840807000671999994146066988460096961885336775821584429243252000000000000000000000000000000000000000000,
  6876150952293447487705672075985894867126206632486584069484805995418806484782713417169000000000000000000000000000000000000000000,
  6103665068112573166386448194197691157011081462565702318169453535060606333243625653273000000000000000000000000000000000000000000,
  5326334500516593646732242007356261603681240974675360888644267817919477864087396165394000000000000000000000000000000000000000000,
  4544776829814801063212783364710565764033478171397453108870491672589148373713587707081000000000000000000000000000000000000000000,
  3759613764904007610727945123298386707934701236716506738159181215058230068338905583997000000000000000000000000000000000000000000,
  2971472387045450575477997101561205310033800195767996545769336118915089916948666251037000000000000000000000000000000000000000000,
  2180992681432088204495304068475586740093855002051499673715400295756097003849709557821400000000000000000000000000000000000000000,
  1388883640105502763344013249747797360313665798076382663108628788964740379121019363727500000000000000000000000000000000000000000,
  596845810059268920570441411555248779023253827623760065733083669733686861779854670567840000000000000000000000000000000000000000]

/-- `case 112` (Util/Gauss_Legendre_Nodes_and_Weights.hpp:30824-31332), `nodes`. -/
def nodes112 : List Int := [
  -999771538659771621693486533995941988741881358353317497531164308813339060390702014614700302102347307403983779197156515268641527270,
  -998796446471654933572221167436981855904705608522460567817803147053142495196930552873152890892236870917076200376374019227425371540,
  -997042978932663229867526568376838996124800297769484687980691890108262976431197370039150763642428511828984111969595186804081891360,
  -994512113526926034109948921802451765672052678409805579481976818066548760298086187514974078374660139177780194155540507734491835490,
  -991205775981900889806917985896822046770946366355745729028175971303926748855367660667271405564111535610631354915841558524620544370,
  -987126533067849339874688248050407622731642850893971049642770282235095902673024351116682407429901576330767022334795179311218658070,
  -982277561850900639568924121614470127899098098520769585003648824606853771423861702355190854108729802186247412638248557242344198180,
  -976662641857337205442055401685444892217246239438094253700430086123224350747901128465669093245688831839217375211925119161061344520,
  -970286150702055198785245872458028588003344055087296127017622887355854344102668336036588722344224024123576618311220129014854701050,
  -963153060201196493550936997300052016783438444642805856566184266550550683538014213462014415051565469354507300944801556556669772940,
  -955268932310924177714753253178133239348091830452726694184366618062115882188020227579917476345067573333452091041298350638123462830,
  -946639914709804307447283013334546075663680935208583409382521948405052289996222723679507493664572771509424089294681934756470668890,
  -937272735966494805201384862583349188290269391908768640900743370677754311397361322471706438766597079727858775778183286626508104760,
  -927174700273201407787886244601336532988358692222111554701101795234439722409837375451293482790125163777195725857316953633393260350,
  -916353681739287079481379183043984940614368104427433416070793297689127411147222450922267705648040473342683297595474660115509378710,
  -904818118245091198115498527506216321234660941660477644622674634971637866979526174831418890836765448845658916297980166766333379030,
  -892577004858628850420196354689501248210232051657826215698450105025778910182340922551395937850510880604650326724974273645509139390,
  -879639886819219486164130428213067578246625825648032286175245101286225858506218935412393763997027064266071092373911922874027737110,
  -866016852092935069618786206904943986707323326783609111089523650287684434771608261051574776844018819427267548849904348420428497360,
  -851718523505348264372962557552000356619828868411026468593321481011561299484568412962917437553198594407079159696876049479627843020,
  -836756050457527395704312217653799147078224139868701160832069976381106107404181028540204314788420176932101076804332594441619573760,
  -821141100231625483317254802205362475350427895357530148748348338342028125218979530737302021339342631949018862297015632016507035910,
  -804885848892773911028235013610468549110930318355302275336875690221307159474478823756628577843254189581091300499743115679670085890,
  -788002971794331597550287757728275288087816615977971923148035500661384482511818827975005212082476318626532537321471612470530006580,
  -770505633693865278752555094004415954234067667914764713378928712538285672780592072919222467107166276838286397765948645410045369510,
  -752407478487549646082168745626324611268076106339202018879952747545561951641387051585952101813536193217794732057324585164336194360,
  -733722618570979719201576244105124122237628551847614249474152116311932782707233404297021212152615104407365000951737603051116612460,
  -714465623834683085730954564828054148890103113436285557323341241556112571023526521235048065110905115359080487641488784065728649120,
  -694651510302907090967563549921424224854446668354664779925819583889972663343008237681903558083638356888678939563228808494007491370,
  -674295728424535967702545124992140108579559388788107447090356650489707570312833700463585667342038217927992957872847413142007665720,
  -653414151025265342751527285494391070968351203790724632981272875065386959267947904419649459331475565321822036776563191266772317140,
  -632023060930426519041018204414777244408542957034077172234791651189794238141010780204778899003529966249434304002111018968931291430,
  -610139138268110324418130086165774765184364888856004856422220813988693642600319849017247228093314567782992040604270875698716406660,
  -587779447462490018804205392612784215745112973808855681402807999355739961911913129162096295503545623995312716217160555294476735460,
  -564961423927484617202515398828472226627289147760821435065476780446880448491341171876711114487576390711348001623377915079674159210,
  -541702860471137863649134268626019392917165956440331335426640821809873809872960830522511772727137126801178978841680431665075113090,
  -518021893421313821753076476163502358565944652651696851360076029147283727784830653416184641981367657824628499216928612049133313270,
  -493936988483527471248146813165185200074661896927346230988934167413422510990060650000944854015353102814812811447245346587922464400,
  -469466926341937658737115491438778171640433356701876564589580774372633582337662718083228778446789757049244847103909222944955540870,
  -444630788014730089551938355672496135261345482842981450107286217125640303390614538441069089994141251925889619225184447955311763060,
  -419447939975309615802462970360435913778003379616798087710689438991928332771850456869543366478065944940593770663086118391239749890,
  -393938019050903727902979823104782202491707102394978659965553172509049655433046362884722608814776372202687967949040278323684763910,
  -368120917110352753647637641729891825647713961005394488016124021525814590794510241954648005150447959781022586191141515346325042780,
  -342016765553026677019060935537132185935515105543568079234888498047263759673028450353531242678033689822514766369566156280182796310,
  -315645919610963581727181873577816985391728476913609000833355086226822377992255055838635001089141806026545507134310546047452755360,
  -289028942476470382212648030191331501950830857545154191720066833590277390237417978988388469196142982655159040232285972459926373160,
  -262186589267562614798891921743108721404639463273720225124283611714053511255372293255821436073138263918547060998587062086109672250,
  -235139790843746518356121711616720970742102571451944228811980558494319811375840641687973798489297312722053448967790734393304557490,
  -207909637484763339134465670891722987884472138607920241011152093118192098659715311216277593044611387466140925572542213576186061800,
  -180517362445022657703285865816238042635490267980395174182338774372178296579267782941161234082492519107999286886101058263280712320,
  -152984325396548474156308985713377697376762749751876445270883341196467216232756011834218993547940676195727497671927175045952181380,
  -125331995773348725537246740141967654179927177876335436707879548263787884569172773018800170545320348478423211858487253800396472940,
  -97581936030195779184779783412189205530041794167890301892872731554319911473425041427484004316037503165496801865020336278407737884,
  -69755784828872187577706347623609043810540506775456044864122893049974120455873406718549622152665724666106948265722188319092646447,
  -41875240164992552336389064997184164635311449535691325161189926959283930297185665759873865358551955358612016572132128346585836579,
  -13962042448558683275143721332137939405526350406796656092686707141861971109302032482757860573067446625270352849958554858663291240,
  13962042448558683275143721332137939405526350406796656092686707141861971109302032482757860573067446625270352849958554858663291240,
  41875240164992552336389064997184164635311449535691325161189926959283930297185665759873865358551955358612016572132128346585836579,
  69755784828872187577706347623609043810540506775456044864122893049974120455873406718549622152665724666106948265722188319092646447,
  97581936030195779184779783412189205530041794167890301892872731554319911473425041427484004316037503165496801865020336278407737884,
  125331995773348725537246740141967654179927177876335436707879548263787884569172773018800170545320348478423211858487253800396472940,
  152984325396548474156308985713377697376762749751876445270883341196467216232756011834218993547940676195727497671927175045952181380,
  180517362445022657703285865816238042635490267980395174182338774372178296579267782941161234082492519107999286886101058263280712320,
  207909637484763339134465670891722987884472138607920241011152093118192098659715311216277593044611387466140925572542213576186061800,
  235139790843746518356121711616720970742102571451944228811980558494319811375840641687973798489297312722053448967790734393304557490,
  262186589267562614798891921743108721404639463273720225124283611714053511255372293255821436073138263918547060998587062086109672250,
  289028942476470382212648030191331501950830857545154191720066833590277390237417978988388469196142982655159040232285972459926373160,
  315645919610963581727181873577816985391728476913609000833355086226822377992255055838635001089141806026545507134310546047452755360,
  342016765553026677019060935537132185935515105543568079234888498047263759673028450353531242678033689822514766369566156280182796310,
  368120917110352753647637641729891825647713961005394488016124021525814590794510241954648005150447959781022586191141515346325042780,
  393938019050903727902979823104782202491707102394978659965553172509049655433046362884722608814776372202687967949040278323684763910,
  419447939975309615802462970360435913778003379616798087710689438991928332771850456869543366478065944940593770663086118391239749890,
  444630788014730089551938355672496135261345482842981450107286217125640303390614538441069089994141251925889619225184447955311763060,
  469466926341937658737115491438778171640433356701876564589580774372633582337662718083228778446789757049244847103909222944955540870,
  493936988483527471248146813165185200074661896927346230988934167413422510990060650000944854015353102814812811447245346587922464400,
  518021893421313821753076476163502358565944652651696851360076029147283727784830653416184641981367657824628499216928612049133313270,
  541702860471137863649134268626019392917165956440331335426640821809873809872960830522511772727137126801178978841680431665075113090,
  564961423927484617202515398828472226627289147760821435065476780446880448491341171876711114487576390711348001623377915079674159210,
  587779447462490018804205392612784215745112973808855681402807999355739961911913129162096295503545623995312716217160555294476735460,
  610139138268110324418130086165774765184364888856004856422220813988693642600319849017247228093314567782992040604270875698716406660,
  632023060930426519041018204414777244408542957034077172234791651189794238141010780204778899003529966249434304002111018968931291430,
  653414151025265342751527285494391070968351203790724632981272875065386959267947904419649459331475565321822036776563191266772317140,
  674295728424535967702545124992140108579559388788107447090356650489707570312833700463585667342038217927992957872847413142007665720,
  694651510302907090967563549921424224854446668354664779925819583889972663343008237681903558083638356888678939563228808494007491370,
  714465623834683085730954564828054148890103113436285557323341241556112571023526521235048065110905115359080487641488784065728649120,
  733722618570979719201576244105124122237628551847614249474152116311932782707233404297021212152615104407365000951737603051116612460,
  752407478487549646082168745626324611268076106339202018879952747545561951641387051585952101813536193217794732057324585164336194360,
  770505633693865278752555094004415954234067667914764713378928712538285672780592072919222467107166276838286397765948645410045369510,
  788002971794331597550287757728275288087816615977971923148035500661384482511818827975005212082476318626532537321471612470530006580,
  804885848892773911028235013610468549110930318355302275336875690221307159474478823756628577843254189581091300499743115679670085890,
  821141100231625483317254802205362475350427895357530148748348338342028125218979530737302021339342631949018862297015632016507035910,
  836756050457527395704312217653799147078224139868701160832069976381106107404181028540204314788420176932101076804332594441619573760,
  851718523505348264372962557552000356619828868411026468593321481011561299484568412962917437553198594407079159696876049479627843020,
  866016852092935069618786206904943986707323326783609111089523650287684434771608261051574776844018819427267548849904348420428497360,
  879639886819219486164130428213067578246625825648032286175245101286225858506218935412393763997027064266071092373911922874027737110,
  892577004858628850420196354689501248210232051657826215698450105025778910182340922551395937850510880604650326724974273645509139390,
  904818118245091198115498527506216321234660941660477644622674634971637866979526174831418890836765448845658916297980166766333379030,
  916353681739287079481379183043984940614368104427433416070793297689127411147222450922267705648040473342683297595474660115509378710,
  927174700273201407787886244601336532988358692222111554701101795234439722409837375451293482790125163777195725857316953633393260350,
  937272735966494805201384862583349188290269391908768640900743370677754311397361322471706438766597079727858775778183286626508104760,
  946639914709804307447283013334546075663680935208583409382521948405052289996222723679507493664572771509424089294681934756470668890,
  955268932310924177714753253178133239348091830452726694184366618062115882188020227579917476345067573333452091041298350638123462830,
  963153060201196493550936997300052016783438444642805856566184266550550683538014213462014415051565469354507300944801556556669772940,
  970286150702055198785245872458028588003344055087296127017622887355854344102668336036588722344224024123576618311220129014854701050,
  976662641857337205442055401685444892217246239438094253700430086123224350747901128465669093245688831839217375211925119161061344520,
  982277561850900639568924121614470127899098098520769585003648824606853771423861702355190854108729802186247412638248557242344198180,
  987126533067849339874688248050407622731642850893971049642770282235095902673024351116682407429901576330767022334795179311218658070,
  991205775981900889806917985896822046770946366355745729028175971303926748855367660667271405564111535610631354915841558524620544370,
  994512113526926034109948921802451765672052678409805579481976818066548760298086187514974078374660139177780194155540507734491835490,
  997042978932663229867526568376838996124800297769484687980691890108262976431197370039150763642428511828984111969595186804081891360,
  998796446471654933572221167436981855904705608522460567817803147053142495196930552873152890892236870917076200376374019227425371540,
  999771538659771621693486533995941988741881358353317497531164308813339060390702014614700302102347307403983779197156515268641527270]

/-- `case 112` (Util/Gauss_Legendre_Nodes_and_Weights.hpp:30824-31332), `weights`. -/
def weights112 : List Nat := [
  586283250124033644608089904139007819327384451809285755530054801132032596457451905582800000000000000000000000000000000000000000,
  1364312141575536774157177410723103369092445644845916599799049191155204417313558424885200000000000000000000000000000000000000000,
  2142430139997738571995798817242942379125737081245503022061456581744949585964902830447000000000000000000000000000000000000000000,
  2918977707086729124499618177991258901501236804935876965051281460286416656998401652311000000000000000000000000000000000000000000,
  3693269262687377612451104916973013682360538145138395576096236553599775440545256513404000000000000000000000000000000000000000000,
  4464686947665048747140482373924218251154561922586776335505986717972037142496018586050000000000000000000000000000000000000000000,
  5232625496905653673030311533175482063634151534290724997744825110787819266627125050891000000000000000000000000000000000000000000,
  5996484824092679436997210666321527830129342379482020378964013246736203695678527369654000000000000000000000000000000000000000000,
  6755668783102183392557452627251031657727597785813943934652374590578995466659810558942000000000000000000000000000000000000000000,
  7509585152408379673092322204327692750202106750145973502956594729388388827262274640579000000000000000000000000000000000000000000,
  8257645934542228997902794230722504917600623057428706743250297618426251053721401384828000000000000000000000000000000000000000000,
  8999267751822815032444093525393599693064157110919224479228375869877103517497275689188000000000000000000000000000000000000000000,
  9733872274320898928821178633394837073415458031766730070886709485267029648214933007992000000000000000000000000000000000000000000,
  10460886658262272224854568948370841680583940725366214799236535457829253139364558468086900000000000000000000000000000000000000000,
  11179743986444979672546245742748411912640820576374513055441916755682536767493570959823100000000000000000000000000000000000000000,
  11889883706993013501998875813907033815526881132394537058115263726051330500371118459495050000000000000000000000000000000000000000,
  12590752068622815527793804282151975466238061990075022054501418053255076067655526974883340000000000000000000000000000000000000000,
  13281802551382205638924895761684862648226633681039467057477589962358898852170868480710560000000000000000000000000000000000000000,
  13962496292175973077264701557800361126056501990328744957640306565437460749413900944211114000000000000000000000000000000000000000,
  14632302504563414206378199029199457473867113964697296820711129613342598629689775420319357000000000000000000000000000000000000000,
  15290698892400920628871536984103405781794816643992884013248133545263099993055008612599900400000000000000000000000000000000000000,
  15937172056950927559037327674714705186320292126482375466849760535376565580453017166343720400000000000000000000000000000000000000,
  16571217897107091698939625527895586617113331030001883310855940269270287959623637146825996570000000000000000000000000000000000000,
  17192342002404048826455432309858945706841087900653428021773765268520104112719437039168446749000000000000000000000000000000000000,
  17800060038493277536480930910516407640400045139327497749883812536954930644679847475962623520000000000000000000000000000000000000,
  18393898124776935344730103692365020285315586293440720163906827582079197954826370871270158923800000000000000000000000000000000000,
  18973393203900354045195699461621952381417649373734360117253316979167944127223806757655329980210000000000000000000000000000000000,
  19538093402811905885811466305790424879334703931425168415802363642154891575508262009255429086070000000000000000000000000000000000,
  20087558385106587428799118834923309055317682091100060759845281134849987357908429941315235441331000000000000000000000000000000000,
  20621359694377147255903278942427287250327540333569428994468315071185210918932648556155230429341800000000000000000000000000000000,
  21139081088304042978862565007008173198282910430130247933703955981554084317591328721570323337252630000000000000000000000000000000,
  21640318863223032327918965366949634535922218465968122077308323620812711251447114167279153687199357000000000000000000000000000000,
  22124682168916829474185997121207965060847501104266048613360507263790533161224511316054526923484292000000000000000000000000000000,
  22591793313385018461441427993421209631437420788484414581019290167286124633118717270564225162864584900000000000000000000000000000,
  23041288057354325815499787510320797832060194454634120488036578538811604746684701684026513843182676060000000000000000000000000000,
  23472815898299421620420349151782708574440656364163756363306112119407121644104265753694976395650449506000000000000000000000000000,
  23886040343752645326441158061826224661160507693398641355472954014504288328552366680039797176023924212200000000000000000000000000,
  24280639173689438872915522183483082989715539526075627420778392245032547004782223039345772015235452244570000000000000000000000000,
  24656304691784812878634869966867089829697625532396499228896729034922209799641062949787509611493930967455000000000000000000000000,
  25012743965344867770958321946858168057964366238200676856566153557674351837646607335998188182795753413508520000000000000000000000,
  25349679053726235917480603558815441470344807582137909209149598887249693111271730234259160702198067296139929000000000000000000000,
  25666847225065297520405022733851173711052705074246106068369816965077992040411494030333835841671975671253588900000000000000000000,
  25964001161148146161080712084962685092442944277277755152204213057358076928506371966823040363623103098890930350000000000000000000,
  26240909150261532990221955341555805062726496532879633961205972630881117225810303652117300578760711803291498029000000000000000000,
  26497355267874394908769727497884584939861683040330979138489783364396429520394148902013968003140823885767347032100000000000000000,
  26733139545009064707880740699700270877026267999428584310191979519757962875224402680946733894602106093534186036310000000000000000,
  26948078124170862882897344910580544688915261785349776866076670379082246681614758340758032540237366468095680500467900000000000000,
  27142003402714474402485480837515649232386880164406012694444921887975650931650807822264563242378737348135223119399770000000000000,
  27314764163535311670304350915222046472387734644219394209239289088357909797582758683855242385293285961516129651102229000000000000,
  27466225692983949724207897871184813481086975422287585505213351414395407334259737588746154627433446344855389042306737700000000000,
  27596269885911683745698165683473627593936018741691001264805673743360334771306046470446468560531819738262149027759454984000000000,
  27704795337765294488470154946156185964958826091795614623369417921299669559900348644994218395770853900858048917674205534580000000,
  27791717423659206498301754711452794326181235820541563736501750640052715033692012811365203376359799451836815585511927895404000000,
  27856968364363379146348969830697858957428461686833335456508554496045780798501666943423287385549569076330941706957030698861780000,
  27900497279155473642143408046277855592567833607070339536844521319322112877732596956596446282410439724089531698839194785748545000,
  27922270225496082396341299219283398869508897307373572170196555485859741540821192453858744308504341677201089177362377125095003020,
  27922270225496082396341299219283398869508897307373572170196555485859741540821192453858744308504341677201089177362377125095003020,
  27900497279155473642143408046277855592567833607070339536844521319322112877732596956596446282410439724089531698839194785748545000,
  27856968364363379146348969830697858957428461686833335456508554496045780798501666943423287385549569076330941706957030698861780000,
  27791717423659206498301754711452794326181235820541563736501750640052715033692012811365203376359799451836815585511927895404000000,
  27704795337765294488470154946156185964958826091795614623369417921299669559900348644994218395770853900858048917674205534580000000,
  27596269885911683745698165683473627593936018741691001264805673743360334771306046470446468560531819738262149027759454984000000000,
  27466225692983949724207897871184813481086975422287585505213351414395407334259737588746154627433446344855389042306737700000000000,
  27314764163535311670304350915222046472387734644219394209239289088357909797582758683855242385293285961516129651102229000000000000,
  27142003402714474402485480837515649232386880164406012694444921887975650931650807822264563242378737348135223119399770000000000000,
  26948078124170862882897344910580544688915261785349776866076670379082246681614758340758032540237366468095680500467900000000000000,
  26733139545009064707880740699700270877026267999428584310191979519757962875224402680946733894602106093534186036310000000000000000,
  26497355267874394908769727497884584939861683040330979138489783364396429520394148902013968003140823885767347032100000000000000000,
  26240909150261532990221955341555805062726496532879633961205972630881117225810303652117300578760711803291498029000000000000000000,
  25964001161148146161080712084962685092442944277277755152204213057358076928506371966823040363623103098890930350000000000000000000,
  25666847225065297520405022733851173711052705074246106068369816965077992040411494030333835841671975671253588900000000000000000000,
  25349679053726235917480603558815441470344807582137909209149598887249693111271730234259160702198067296139929000000000000000000000,
  25012743965344867770958321946858168057964366238200676856566153557674351837646607335998188182795753413508520000000000000000000000,
  24656304691784812878634869966867089829697625532396499228896729034922209799641062949787509611493930967455000000000000000000000000,
  24280639173689438872915522183483082989715539526075627420778392245032547004782223039345772015235452244570000000000000000000000000,
  23886040343752645326441158061826224661160507693398641355472954014504288328552366680039797176023924212200000000000000000000000000,
  23472815898299421620420349151782708574440656364163756363306112119407121644104265753694976395650449506000000000000000000000000000,
  23041288057354325815499787510320797832060194454634120488036578538811604746684701684026513843182676060000000000000000000000000000,
  22591793313385018461441427993421209631437420788484414581019290167286124633118717270564225162864584900000000000000000000000000000,
  22124682168916829474185997121207965060847501104266048613360507263790533161224511316054526923484292000000000000000000000000000000,
  21640318863223032327918965366949634535922218465968122077308323620812711251447114167279153687199357000000000000000000000000000000,
  21139081088304042978862565007008173198282910430130247933703955981554084317591328721570323337252630000000000000000000000000000000,
  20621359694377147255903278942427287250327540333569428994468315071185210918932648556155230429341800000000000000000000000000000000,
  20087558385106587428799118834923309055317682091100060759845281134849987357908429941315235441331000000000000000000000000000000000,
  19538093402811905885811466305790424879334703931425168415802363642154891575508262009255429086070000000000000000000000000000000000,
  18973393203900354045195699461621952381417649373734360117253316979167944127223806757655329980210000000000000000000000000000000000,
  18393898124776935344730103692365020285315586293440720163906827582079197954826370871270158923800000000000000000000000000000000000,
  17800060038493277536480930910516407640400045139327497749883812536954930644679847475962623520000000000000000000000000000000000000,
  17192342002404048826455432309858945706841087900653428021773765268520104112719437039168446749000000000000000000000000000000000000,
  16571217897107091698939625527895586617113331030001883310855940269270287959623637146825996570000000000000000000000000000000000000,
  15937172056950927559037327674714705186320292126482375466849760535376565580453017166343720400000000000000000000000000000000000000,
  15290698892400920628871536984103405781794816643992884013248133545263099993055008612599900400000000000000000000000000000000000000,
  14632302504563414206378199029199457473867113964697296820711129613342598629689775420319357000000000000000000000000000000000000000,
  13962496292175973077264701557800361126056501990328744957640306565437460749413900944211114000000000000000000000000000000000000000,
  13281802551382205638924895761684862648226633681039467057477589962358898852170868480710560000000000000000000000000000000000000000,
  12590752068622815527793804282151975466238061990075022054501418053255076067655526974883340000000000000000000000000000000000000000,
  11889883706993013501998875813907033815526881132394537058115263726051330500371118459495050000000000000000000000000000000000000000,
  11179743986444979672546245742748411912640820576374513055441916755682536767493570959823100000000000000000000000000000000000000000,
  10460886658262272224854568948370841680583940725366214799236535457829253139364558468086900000000000000000000000000000000000000000,
  9733872274320898928821178633394837073415458031766730070886709485267029648214933007992000000000000000000000000000000000000000000,
  8999267751822815032444093525393599693064157110919224479228375869877103517497275689188000000000000000000000000000000000000000000,
  8257645934542228997902794230722504917600623057428706743250297618426251053721401384828000000000000000000000000000000000000000000,
  7509585152408379673092322204327692750202106750145973502956594729388388827262274640579000000000000000000000000000000000000000000,
  6755668783102183392557452627251031657727597785813943934652374590578995466659810558942000000000000000000000000000000000000000000,
  5996484824092679436997210666321527830129342379482020378964013246736203695678527369654000000000000000000000000000000000000000000,
  5232625496905653673030311533175482063634151534290724997744825110787819266627125050891000000000000000000000000000000000000000000,
  4464686947665048747140482373924218251154561922586776335505986717972037142496018586050000000000000000000000000000000000000000000,
  3693269262687377612451104916973013682360538145138395576096236553599775440545256513404000000000000000000000000000000000000000000,
  2918977707086729124499618177991258901501236804935876965051281460286416656998401652311000000000000000000000000000000000000000000,
  2142430139997738571995798817242942379125737081245503022061456581744949585964902830447000000000000000000000000000000000000000000,
  1364312141575536774157177410723103369092445644845916599799049191155204417313558424885200000000000000000000000000000000000000000,
  586283250124033644608089904139007819327384451809285755530054801132032596457451905582800000000000000000000000000000000000000000]

/-- `case 113` (Util/Gauss_Legendre_Nodes_and_Weights.hpp:31334-31844), `nodes`. -/
def nodes113 : List Int := [
  -999775546499807115566010204577576194248398349233829287803211848212365023961525447153365346135627761067665849322320879230779941340,
  -998817556737345676480435337650998275108854477888565651755405724183766338605007716052582907296513687233248956720129102649974785870,
  -997094830019705338157604040813006314687699858421650032330037550390879068300688844364303666000476471913197617865830463619455440600,
  -994608303135218230478593436302103423464195343295283072914160692719423751090327652574587930232886006654360725938076527215682391740,
  -991359834062649580053132193646912069055495129318676206616471012857594917252282413004859186737845695696384200345321177224463828040,
  -987351900212664322295734167740494258203343651739027188168526788657361461711440071325840863579757817590526595457316453319641361930,
  -982587568288919811584418097487907828260273575663915133689484658229155696195928300273489014938245499523712642786774318757096753580,
  -977070486674415640350908745617104491723284501690076140639105613331894353676626608874709798461200245816509095588427730489445960390,
  -970804881237132326220196808538068582884206365607516247305853859490298256579866742891063518435429128594014770510937830044568425000,
  -963795551627119529910128021040416265541096550618449560818958453592955450329025067453231626143964498365045576671741514282346472210,
  -956047867418415436833132392301434497836797642764292761389201903542216537615077896828922942610700175276587168900292889602855887670,
  -947567763916309309112562759719257854545922548524292300449529331900115445487946480769505365729270803854732962701123952962138515440,
  -938361737572499707126929464834874891504968679973084677957262498165646067474454824495917010395716747210020621343110232172767991430,
  -928436840988762037493461930986895540483440596295643284874086371512752810622864192870711812644195741236610255145246418008722496650,
  -917800677503403593005804060067506944211938307345308906137557335963831461662822465269169072899737606379938506265851372138126869100,
  -906461395360337210217375018045150775303422470522091270429433380300297226600932622705796116633990781555379709472844627027780237510,
  -894427681463155609544620393420203150248762539046597501346210791193992609489111891748067563827503691671918134142451057509292920420,
  -881708754717926225167781427897690200147419047512694586325342552837626805104340645749016390318268206380234096268710993836002789840,
  -868314358969235756087469214927679956768270949283555443180667893901229030470781644986345417206706465692348144321001984764276038240,
  -854254755534577281235201784035928789993756759308049028852891230145501760995070433284765808600733574127595525478834955540251207330,
  -839540715342614683873478801043165384743349227121029853205758750983897462390695889915643969068715610376470707882678876457169350850,
  -824183510681236843354655906530302702473305366497569109532775433379064849401435354282567873127658197247748132433703641738567869370,
  -808194906561655478880111827622489637257009599007623930038028146505285388969379244849032590934600327316552584614816903871869696750,
  -791587151705119734143589472347925975516838023825390512402381009557121796520916437309311681788817470464617626525882601028816813590,
  -774372969159124884063964676378583975772261796601263673237421794785233792636151911697739630248225322708060693892760812239181309310,
  -756565546550285810997104768871532905647897898915909983323033160776803853756272940649810107462512980605392726694587295500790326430,
  -738178525981330226886903899524162981745168044434665216310838612861880152638004923062706011133802879826010820040358867267098962740,
  -719225993579943127204346764393170468497922078547967566218918748777822783944922592269362785532268022429973091773251483736083099040,
  -699722468707463230148385621051097802159221678730614174644849408120453982766829951372060318748016088508244874874394253483377411370,
  -679682892835694451859916385435932243592404328558307544280541418444385917344136949744952461739361969553601502358950107702947074320,
  -659122618100350889339904778754899582813587139432035237538204595955265809068394200687197798384801230530571930225579014201893083900,
  -638057395539902317286852205911585273749188090404073729747224913286169640945811172622950639630611539705760473248409127779746813250,
  -616503363028828781623600632970171834791477179899019833429854915980292835889454014979338391103338312941526016734850088980256665950,
  -594477032914527383344749942145086341954823147772262656985996682730823418434820282703797010626535673637019997483362953712973372780,
  -571995279367341662927050961045904019748935486045094184257410699959933389451624431095296455420001749579395626564305314957376947490,
  -549075325453403977998066368158854377777470760206345371216621240726822247836098603652101876419039632091253668435933324656028868710,
  -525734729940193769968165309348500388581357484964777587284761933657357902345406002760334600901258896993404963417718507458344206990,
  -501991373844919492072874255404290486334831083193573787640065968761407202110923881315458510984435568237774375945007593263159507400,
  -477863446736029075895722079609690027529995250511619873954079788388376866387684952858304055807427882068926739447511778491389155420,
  -453369432798343002748414962125714612176588203753443525949492142990150480596353564755047594742575116499305006994755289728436489710,
  -428528096672485180878348087999701532929750006585437003179599354667566441462951315849433085224004492538823253752066707004128137370,
  -403358469079459774557752582308090871644112245989043882070848494896333492596420438300138151832545766148693301601905459765170280590,
  -377879832241386757064118914719895242900938400266465238488030193610224135580358758551933364497551053806992894768576828883811232010,
  -352111705109565142364300508169426347644061324206507003182401449709158640752563478529386392477154750046555499850896946326864203900,
  -326073828411180471855216495936919444450733822818189057452172872961566751321598837315265870412581607474485853421039406836777590640,
  -299786149526112080842435239482488697034748739312866722441481186736523164532335098838999690716145348438682276226575798516365877200,
  -273268807205425838959145754697938671935568403990627697642233391601626833597532627036204036035985083162133867968351033198282931950,
  -246542116143259350360658928225583328568334783756307732366771218408576715595290337469205414421483848710357852381629108253322101540,
  -219626551413918920837264592292353163428561352996219450593452533911760232941718951208128678076143452805422154316448996440889055890,
  -192542732786110864290718026554186628599358476475160897682068838087308008836902787105923585349309956173164942203362501170640681790,
  -165311408926323851487457670444564477286311528152174193706286391075809570643928855893412390534955707185562603566225207824562466220,
  -137953441503463927738129705641258260470117988518804463424341028595441534476110376364420735482939888407039690040227790888297995780,
  -110489789206919478264816922208518509320805510704529828451314445578615144773890653757637586327436998953432138397602648012476324900,
  -82941491690299742676005853641065560046756451898408284565105048081857036830073435932927674979315433074652806119885746168595991820,
  -55329653453147422463923960137765530144664932491100122235575864968623988383870647693385199937184791756038026083698948538622761993,
  -27675427672973444221506678294064878102177025283515604501426058030197969272642801212049475271085660761106491767679098141505068307,
  0,
  27675427672973444221506678294064878102177025283515604501426058030197969272642801212049475271085660761106491767679098141505068307,
  55329653453147422463923960137765530144664932491100122235575864968623988383870647693385199937184791756038026083698948538622761993,
  82941491690299742676005853641065560046756451898408284565105048081857036830073435932927674979315433074652806119885746168595991820,
  110489789206919478264816922208518509320805510704529828451314445578615144773890653757637586327436998953432138397602648012476324900,
  137953441503463927738129705641258260470117988518804463424341028595441534476110376364420735482939888407039690040227790888297995780,
  165311408926323851487457670444564477286311528152174193706286391075809570643928855893412390534955707185562603566225207824562466220,
  192542732786110864290718026554186628599358476475160897682068838087308008836902787105923585349309956173164942203362501170640681790,
  219626551413918920837264592292353163428561352996219450593452533911760232941718951208128678076143452805422154316448996440889055890,
  246542116143259350360658928225583328568334783756307732366771218408576715595290337469205414421483848710357852381629108253322101540,
  273268807205425838959145754697938671935568403990627697642233391601626833597532627036204036035985083162133867968351033198282931950,
  299786149526112080842435239482488697034748739312866722441481186736523164532335098838999690716145348438682276226575798516365877200,
  326073828411180471855216495936919444450733822818189057452172872961566751321598837315265870412581607474485853421039406836777590640,
  352111705109565142364300508169426347644061324206507003182401449709158640752563478529386392477154750046555499850896946326864203900,
  377879832241386757064118914719895242900938400266465238488030193610224135580358758551933364497551053806992894768576828883811232010,
  403358469079459774557752582308090871644112245989043882070848494896333492596420438300138151832545766148693301601905459765170280590,
  428528096672485180878348087999701532929750006585437003179599354667566441462951315849433085224004492538823253752066707004128137370,
  453369432798343002748414962125714612176588203753443525949492142990150480596353564755047594742575116499305006994755289728436489710,
  477863446736029075895722079609690027529995250511619873954079788388376866387684952858304055807427882068926739447511778491389155420,
  501991373844919492072874255404290486334831083193573787640065968761407202110923881315458510984435568237774375945007593263159507400,
  525734729940193769968165309348500388581357484964777587284761933657357902345406002760334600901258896993404963417718507458344206990,
  549075325453403977998066368158854377777470760206345371216621240726822247836098603652101876419039632091253668435933324656028868710,
  571995279367341662927050961045904019748935486045094184257410699959933389451624431095296455420001749579395626564305314957376947490,
  594477032914527383344749942145086341954823147772262656985996682730823418434820282703797010626535673637019997483362953712973372780,
  616503363028828781623600632970171834791477179899019833429854915980292835889454014979338391103338312941526016734850088980256665950,
  638057395539902317286852205911585273749188090404073729747224913286169640945811172622950639630611539705760473248409127779746813250,
  659122618100350889339904778754899582813587139432035237538204595955265809068394200687197798384801230530571930225579014201893083900,
  679682892835694451859916385435932243592404328558307544280541418444385917344136949744952461739361969553601502358950107702947074320,
  699722468707463230148385621051097802159221678730614174644849408120453982766829951372060318748016088508244874874394253483377411370,
  719225993579943127204346764393170468497922078547967566218918748777822783944922592269362785532268022429973091773251483736083099040,
  738178525981330226886903899524162981745168044434665216310838612861880152638004923062706011133802879826010820040358867267098962740,
  756565546550285810997104768871532905647897898915909983323033160776803853756272940649810107462512980605392726694587295500790326430,
  774372969159124884063964676378583975772261796601263673237421794785233792636151911697739630248225322708060693892760812239181309310,
  791587151705119734143589472347925975516838023825390512402381009557121796520916437309311681788817470464617626525882601028816813590,
  808194906561655478880111827622489637257009599007623930038028146505285388969379244849032590934600327316552584614816903871869696750,
  824183510681236843354655906530302702473305366497569109532775433379064849401435354282567873127658197247748132433703641738567869370,
  839540715342614683873478801043165384743349227121029853205758750983897462390695889915643969068715610376470707882678876457169350850,
  854254755534577281235201784035928789993756759308049028852891230145501760995070433284765808600733574127595525478834955540251207330,
  868314358969235756087469214927679956768270949283555443180667893901229030470781644986345417206706465692348144321001984764276038240,
  881708754717926225167781427897690200147419047512694586325342552837626805104340645749016390318268206380234096268710993836002789840,
  894427681463155609544620393420203150248762539046597501346210791193992609489111891748067563827503691671918134142451057509292920420,
  906461395360337210217375018045150775303422470522091270429433380300297226600932622705796116633990781555379709472844627027780237510,
  917800677503403593005804060067506944211938307345308906137557335963831461662822465269169072899737606379938506265851372138126869100,
  928436840988762037493461930986895540483440596295643284874086371512752810622864192870711812644195741236610255145246418008722496650,
  938361737572499707126929464834874891504968679973084677957262498165646067474454824495917010395716747210020621343110232172767991430,
  947567763916309309112562759719257854545922548524292300449529331900115445487946480769505365729270803854732962701123952962138515440,
  956047867418415436833132392301434497836797642764292761389201903542216537615077896828922942610700175276587168900292889602855887670,
  963795551627119529910128021040416265541096550618449560818958453592955450329025067453231626143964498365045576671741514282346472210,
  970804881237132326220196808538068582884206365607516247305853859490298256579866742891063518435429128594014770510937830044568425000,
  977070486674415640350908745617104491723284501690076140639105613331894353676626608874709798461200245816509095588427730489445960390,
  982587568288919811584418097487907828260273575663915133689484658229155696195928300273489014938245499523712642786774318757096753580,
  987351900212664322295734167740494258203343651739027188168526788657361461711440071325840863579757817590526595457316453319641361930,
  991359834062649580053132193646912069055495129318676206616471012857594917252282413004859186737845695696384200345321177224463828040,
  994608303135218230478593436302103423464195343295283072914160692719423751090327652574587930232886006654360725938076527215682391740,
  997094830019705338157604040813006314687699858421650032330037550390879068300688844364303666000476471913197617865830463619455440600,
  998817556737345676480435337650998275108854477888565651755405724183766338605007716052582907296513687233248956720129102649974785870,
  999775546499807115566010204577576194248398349233829287803211848212365023961525447153365346135627761067665849322320879230779941340]

/-- `case 113` (Util/Gauss_Legendre_Nodes_and_Weights.hpp:31334-31844), `weights`. -/
def weights113 : List Nat := [
  575998614804225829014528451258790673960309889720054365191912198733844665602087717754000000000000000000000000000000000000000000,
  1340386897468291630914419714102677217752154329060561189693122386705963071361143968834000000000000000000000000000000000000000000,
  2104881048889513621719003404230498459367953969014383553063555382677192097364344446225000000000000000000000000000000000000000000,
  2867861083279214573760874441829067465108308413607882010000896789711592039750241177102000000000000000000000000000000000000000000,
  3628663841697518103069926068234557099347783887792302998441916015299766855483777938500000000000000000000000000000000000000000000,
  4386692637550242114054282357370416177368135002653162990918788705909357151895224008830000000000000000000000000000000000000000000,
  5141363080698791043709223422460338517028646493797052226256401721119696775362995592810000000000000000000000000000000000000000000,
  5892095776388151981362665191445112357109318231131981651158680529457787914521557066200000000000000000000000000000000000000000000,
  6638315092538131528142845846713884079389068457920327872059873046525583654538434131949000000000000000000000000000000000000000000,
  7379449128714518902544331318284348063657263841339027141021704807811690664608955221927000000000000000000000000000000000000000000,
  8114929994770034162417009480515371458080207038281519387465257664681431650910544666534000000000000000000000000000000000000000000,
  8844194184231249856946775368760655596912091787701055560830857232391300382596808194684000000000000000000000000000000000000000000,
  9566682979532366599699098742911190350702280861859199103966695070769634532836363723446000000000000000000000000000000000000000000,
  10281842867703562677367578806149261900756172986399866306720331800156658221768665608012400000000000000000000000000000000000000000,
  10989125958253383682038390321179329830344945600607273329588696620230022693110804755307900000000000000000000000000000000000000000,
  11687990399649637304660285197276494873989650202166617404832383210205743091253176667535600000000000000000000000000000000000000000,
  12377900792624230926448081908887497741702161586122537134515644412100417975740335032422300000000000000000000000000000000000000000,
  13058328599296671698139713691540164672480521990498771858799431034932602730922369165748770000000000000000000000000000000000000000,
  13728752547459069595148693680446731099011176905203208620480502155194696160726210865474660000000000000000000000000000000000000000,
  14388659029533237516831900565714090379031342667623877897712364421125266652382544047898141000000000000000000000000000000000000000,
  15037542495796452141028176602510984762877761862575306924776395593767407498510772653903720000000000000000000000000000000000000000,
  15674905841519473134172352500466611740472705636803883529385428437616030688141226217350727800000000000000000000000000000000000000,
  16300260787688133860224793337289659511458545541508094878536200161181818790988259241791776960000000000000000000000000000000000000,
  16913128254997614719277525234307419240231469164482230698195139604561961095814811014206550770000000000000000000000000000000000000,
  17513038730821080930611008662138879365749667221413875614813525969708103091333380800516280162000000000000000000000000000000000000,
  18099532628864135277817588214437694593191565129400161153429803147656712848407554224784860325000000000000000000000000000000000000,
  18672160641224797698815635468751444078028456842820215618359949259854435680137706615907237005400000000000000000000000000000000000,
  19230484082586188416090792561558753225425161832309957702556923834760436623876777220562426976710000000000000000000000000000000000,
  19774075226276159471376457409023382521145889926898481089027363282971528229590416918136003599824000000000000000000000000000000000,
  20302517631935020743676605342856249897252637579104176291274594298593681484123083344804021370500000000000000000000000000000000000,
  20815406464539374852166067478552813770709724433030963459446382150705446446895829229198972852183300000000000000000000000000000000,
  21312348804536989825086748535832571283899095070441117639469138540433892253115623188801364293249440000000000000000000000000000000,
  21792963948854645744323306350869082023800139712317022031961846213105490732172811721036075645499011000000000000000000000000000000,
  22256883702548019012245251008217925448158609084907210102050620581791240107084624876462306979593145800000000000000000000000000000,
  22703752660869930786512294806506661601943430057719489084818125310385110492270935423828867260677021930000000000000000000000000000,
  23133228481540692407561583413518751606796552058717801350891567560317840829891102074639561815504970024000000000000000000000000000,
  23544982147011833486057785425684986218141215387052710336703512871437564798334650615910759042481708843500000000000000000000000000,
  23938698216522197834925190137594608312901273863847801038275746717493980063134122226850112470260012007230000000000000000000000000,
  24314075067753236700062935991638059073402026820682522339194696740249022780464776150046257521280570772345000000000000000000000000,
  24670825127898314468182276755352825348209892874505991055171980512278825256236785572742157820122636147193700000000000000000000000,
  25008675093968964962261932042716900753538715629502240927892185274208847764104537411904584838414132504076330000000000000000000000,
  25327366142169291655794159083821788866333750365799033480479483710855816661479345513248466557892524297239549000000000000000000000,
  25626654126178087239787083946856321165564976904840937786387853830385994824065795356974055425449037512833897600000000000000000000,
  25906309764186751192025099476914251373008673892703703260469027186143569108579047291334634146953033709317252252000000000000000000,
  26166118814549702279592668570256617480447087491749354140030764466035329637431918459817584061109877146664833009600000000000000000,
  26405882239912710008716432138412351758534885974980439153967283572063231490265248697025366536135341757462406520310000000000000000,
  26625416359693398481172975529825105671250481676908224682961302924117692571477493587740886874845183308520939553856000000000000000,
  26824552990797101340644748219975465640528514325450809782292878076412507984094092501969713679832088150621965798648550000000000000,
  27003139576460260791894330651909283311046304104381212530537958441844527868432600053401897529820096869985334264324640000000000000,
  27161039303122660244579724609136586016918585956783931727129560623590235939270425550681293982224065618183198703453256300000000000,
  27298131205238952078197088785497671939949279740017123146562368610479239033556747189944031396935765816051290899033171775000000000,
  27414310257949182375286053171882219275506211467443000719802928788282485017548323719661746693452867750978703941844884448600000000,
  27509487457537316191087997310386176635138310759396164258563632257373362655604654239489490903196691638310606910140523457500000000,
  27583589889616122926755525041146213644099168823953339580300889484329738195731384865575043299216178598527547886720931786645700000,
  27636560784986184508441877565637897890437584065004879742809366801569411261178846381543416618676901994401663873376300074517828000,
  27668359563126232163025585530390347483374190281578308599043388666135940785056170251456236401365742908838433154838429567314543700,
  27678961863281493405065430217629918914855928592935243879422342583122580857723071199101529688060158565851237730529014153477858715,
  27668359563126232163025585530390347483374190281578308599043388666135940785056170251456236401365742908838433154838429567314543700,
  27636560784986184508441877565637897890437584065004879742809366801569411261178846381543416618676901994401663873376300074517828000,
  27583589889616122926755525041146213644099168823953339580300889484329738195731384865575043299216178598527547886720931786645700000,
  27509487457537316191087997310386176635138310759396164258563632257373362655604654239489490903196691638310606910140523457500000000,
  27414310257949182375286053171882219275506211467443000719802928788282485017548323719661746693452867750978703941844884448600000000,
  27298131205238952078197088785497671939949279740017123146562368610479239033556747189944031396935765816051290899033171775000000000,
  27161039303122660244579724609136586016918585956783931727129560623590235939270425550681293982224065618183198703453256300000000000,
  27003139576460260791894330651909283311046304104381212530537958441844527868432600053401897529820096869985334264324640000000000000,
  26824552990797101340644748219975465640528514325450809782292878076412507984094092501969713679832088150621965798648550000000000000,
  26625416359693398481172975529825105671250481676908224682961302924117692571477493587740886874845183308520939553856000000000000000,
  26405882239912710008716432138412351758534885974980439153967283572063231490265248697025366536135341757462406520310000000000000000,
  26166118814549702279592668570256617480447087491749354140030764466035329637431918459817584061109877146664833009600000000000000000,
  25906309764186751192025099476914251373008673892703703260469027186143569108579047291334634146953033709317252252000000000000000000,
  25626654126178087239787083946856321165564976904840937786387853830385994824065795356974055425449037512833897600000000000000000000,
  25327366142169291655794159083821788866333750365799033480479483710855816661479345513248466557892524297239549000000000000000000000,
  25008675093968964962261932042716900753538715629502240927892185274208847764104537411904584838414132504076330000000000000000000000,
  24670825127898314468182276755352825348209892874505991055171980512278825256236785572742157820122636147193700000000000000000000000,
  24314075067753236700062935991638059073402026820682522339194696740249022780464776150046257521280570772345000000000000000000000000,
  23938698216522197834925190137594608312901273863847801038275746717493980063134122226850112470260012007230000000000000000000000000,
  23544982147011833486057785425684986218141215387052710336703512871437564798334650615910759042481708843500000000000000000000000000,
  23133228481540692407561583413518751606796552058717801350891567560317840829891102074639561815504970024000000000000000000000000000,
  22703752660869930786512294806506661601943430057719489084818125310385110492270935423828867260677021930000000000000000000000000000,
  22256883702548019012245251008217925448158609084907210102050620581791240107084624876462306979593145800000000000000000000000000000,
  21792963948854645744323306350869082023800139712317022031961846213105490732172811721036075645499011000000000000000000000000000000,
  21312348804536989825086748535832571283899095070441117639469138540433892253115623188801364293249440000000000000000000000000000000,
  20815406464539374852166067478552813770709724433030963459446382150705446446895829229198972852183300000000000000000000000000000000,
  20302517631935020743676605342856249897252637579104176291274594298593681484123083344804021370500000000000000000000000000000000000,
  19774075226276159471376457409023382521145889926898481089027363282971528229590416918136003599824000000000000000000000000000000000,
  19230484082586188416090792561558753225425161832309957702556923834760436623876777220562426976710000000000000000000000000000000000,
  18672160641224797698815635468751444078028456842820215618359949259854435680137706615907237005400000000000000000000000000000000000,
  18099532628864135277817588214437694593191565129400161153429803147656712848407554224784860325000000000000000000000000000000000000,
  17513038730821080930611008662138879365749667221413875614813525969708103091333380800516280162000000000000000000000000000000000000,
  16913128254997614719277525234307419240231469164482230698195139604561961095814811014206550770000000000000000000000000000000000000,
  16300260787688133860224793337289659511458545541508094878536200161181818790988259241791776960000000000000000000000000000000000000,
  15674905841519473134172352500466611740472705636803883529385428437616030688141226217350727800000000000000000000000000000000000000,
  15037542495796452141028176602510984762877761862575306924776395593767407498510772653903720000000000000000000000000000000000000000,
  14388659029533237516831900565714090379031342667623877897712364421125266652382544047898141000000000000000000000000000000000000000,
  13728752547459069595148693680446731099011176905203208620480502155194696160726210865474660000000000000000000000000000000000000000,
  13058328599296671698139713691540164672480521990498771858799431034932602730922369165748770000000000000000000000000000000000000000,
  12377900792624230926448081908887497741702161586122537134515644412100417975740335032422300000000000000000000000000000000000000000,
  11687990399649637304660285197276494873989650202166617404832383210205743091253176667535600000000000000000000000000000000000000000,
  10989125958253383682038390321179329830344945600607273329588696620230022693110804755307900000000000000000000000000000000000000000,
  10281842867703562677367578806149261900756172986399866306720331800156658221768665608012400000000000000000000000000000000000000000,
  9566682979532366599699098742911190350702280861859199103966695070769634532836363723446000000000000000000000000000000000000000000,
  8844194184231249856946775368760655596912091787701055560830857232391300382596808194684000000000000000000000000000000000000000000,
  8114929994770034162417009480515371458080207038281519387465257664681431650910544666534000000000000000000000000000000000000000000,
  7379449128714518902544331318284348063657263841339027141021704807811690664608955221927000000000000000000000000000000000000000000,
  6638315092538131528142845846713884079389068457920327872059873046525583654538434131949000000000000000000000000000000000000000000,
  5892095776388151981362665191445112357109318231131981651158680529457787914521557066200000000000000000000000000000000000000000000,
  5141363080698791043709223422460338517028646493797052226256401721119696775362995592810000000000000000000000000000000000000000000,
  4386692637550242114054282357370416177368135002653162990918788705909357151895224008830000000000000000000000000000000000000000000,
  3628663841697518103069926068234557099347783887792302998441916015299766855483777938500000000000000000000000000000000000000000000,
  2867861083279214573760874441829067465108308413607882010000896789711592039750241177102000000000000000000000000000000000000000000,
  2104881048889513621719003404230498459367953969014383553063555382677192097364344446225000000000000000000000000000000000000000000,
  1340386897468291630914419714102677217752154329060561189693122386705963071361143968834000000000000000000000000000000000000000000,
  575998614804225829014528451258790673960309889720054365191912198733844665602087717754000000000000000000000000000000000000000000]

/-- `case 114` (Util/Gauss_Legendre_Nodes_and_Weights.hpp:31846-32362), `nodes`. -/
def nodes114 : List Int := [
  -999779449796201071272506829181941281094273095020661395052932698569644596399083193958904108123010296297988355666264064607236546330,
  -998838116462072463146135280831403512839674063936492053273396848187777918295996633301316917665576491750355401971095367425271724280,
  -997145329378365964618624088781584851390299230717062858506983231019009073290790455843966855956553471484471160901276400011998190470,
  -994701986506958848874733483315915706199856075540672348424539988736552953678665904387500651677328753322748909282084822548883221140,
  -991509881009515731812533603537734368085540893693732480206747508566257779704769211732883723172365175050801421431609132167880966150,
  -987571404786302057270857637468076696019082294253051210199726804032952758955510196396110735461841412761502247375886505965306840080,
  -982889518925946334907620611731258998181647650572797304130480545682662180038151342491173685598589749484053863700103596950231563040,
  -977467746303751014829958900765114052928010404057685770627070656551374578252283306493127505253774097361369311789906622601923298840,
  -971310167554771027428065563187358063473059652606938617399511016085365675965636685347866485423727628999288752404515788598982038230,
  -964421417544632098399966688727726560861842395924103254266314933458958262640172600595331199489298870787074846715996217518367734270,
  -956806681702591398606988373621599736223353770334672131436962514868138549127610340815191495674937365295910367792962270939977781740,
  -948471692040332578202730277214646776283545961851661368468575249233197715096956231261028832185972908982325480683745763527240164700,
  -939422722799888584464816941673422827453187193816095317713629182622399666195924466071234962592157346870807363520237902294879272730,
  -929666585711468359401147474743798863979508986910566885487170918348753076011603658123615374456816779372689103000078351465377742260,
  -919210624855374030892327999266477380478775376462499787968789902518748132142072406255131200239532890977299043347684218290979003140,
  -908062711127635445832902119263306249893014627155366294523329462568369373696292266139299835608052786831415939216483826518268908910,
  -896231236311479527177644319870947871045829664496789260454885525440972871313219406997691213737030165219491743586702126707574293920,
  -883725106758050699151536213557577889741887253017683161051599493556286712790630647126869684210175246173536920877333525119258325520,
  -870553736680578499567980485384426022232694512270727316863964711158177596312712011350298818544614816212083961843131997252255443590,
  -856727041066727093592257888997021151394276993403292443948349558718910845928848739218464086857730261946152852778152804571685329370,
  -842255428214280679922753798852999457334937772725575177615284887958866884030598695146381045710988286427973413493205465299808812840,
  -827149791895675272866015058334796897401607890665888491020767868489474408882321250817995259392163973132975673994297678529610879850,
  -811421503157208485121090913835102712330878846079527731323760716639031256812455694945126735359617521135250398507646371368468770620,
  -795082401759058560318061563382707614192551085702046462513061440005333560617597618461786183344379604997703317744284743899167273960,
  -778144787262529209157106879922139922649966178777288090693188614186703947703015529527377900112955768280729220488371405177330919200,
  -760621409771211620667307798838115117916335845135263033366435833671552436795549224235801351077886092200818475162816945664389641620,
  -742525460333021417104653855804412072182547422477460747196838630893574394445635605946984370658210471342408425496823497484692358900,
  -723870561010327408755418021235267052837626476522786111647803227906525592852980487891520665193486368116938903281924084942673955650,
  -704670754625641364334850156556116277179864990709195832014087125136180415358662367493700125614574152593285252417817188188882444180,
  -684940494190583923162509343024332905339123569302646951388820556655711326747804923954843464434661800543425980226515138665621465240,
  -664694632026081341542104658059092458896759532466943116829389726770302217860318977948576456164254215282880507603610588345588983960,
  -643948408581980989792274289382833708235646421161939954531985802637368598954755526800924968658981785897973136507717140523781822970,
  -622717440964500339370534104486320497457451897864500935502917275141044987490467015330738157232497739384732453794698912044344570610,
  -601017711180144506753357357423908665212691687824299033909774927788475304065677649474748037340315636372142913291029009212056141760,
  -578865554104941136531691728874450469930443713952655393175026372620969076590882386314392132607706287318857612801357177117411631370,
  -556277645188048383312703657845297527197774102794869986071954408988352663672071284616871450966217917502788821943271684284923637770,
  -533270987898991857513955281680979184159550945092342846481295589938857231016122209623228032622351427562286636587171408255063971490,
  -509862900927979499054669376583016609360447955031626724085253345175991866572704140216587330546951459926335398208715637477124626700,
  -486071005148929300840078428498498329006963610403392100030106653905771673642634528444865880212312967258664446105306446687488038940,
  -461913210355023488481565286256659120303927929901026167914540170507181097337966999449543553764344266957296106562647902700152895130,
  -437407701776774044831271018406092410068250864623138626992357268759361467636707024833066113288819105077784624547351262541032140870,
  -412572926392748222599867806323823735215930115056414258572898586801278240393289760614414805265429864415564089656845697041622586700,
  -387427579043258795122138510043048625528795769526323811620527626493619385148768535341056977193955053780169366282851980370800794260,
  -361990588357472138782697350892754816348927476773742095910503072767055522398999260889714538147398475171339892920434506521698407640,
  -336281102504527710558946185994289345249319886659779085086576768429348237708919850775113356380929285675988732484429697070784477660,
  -310318474779394975960515910910449287358682026220535076539211720812855813237628486633095502676340376974252128588980086625241241490,
  -284122249034318257445567669998304879721089496054732365088802332308455809479594359219079164575200675251032068193134837273660979770,
  -257712144966816218148052742693288124108722483244212386026568986202886903433384287583059486592557478705865008198599507575629067020,
  -231108043275310683426753063243370356017524847217076280300669949215677495276196007739656326860912517878471869631007165853344388850,
  -204329970693559152418800717163766963651861734558696757958194094244171102824086108251077869632041574807208124626422688000652178750,
  -177398084915156588710924650074207730496130663119168850563917157026227192638543077139261313798816894992385804492371559455047963750,
  -150332659419454834963035869537881740210769561254854843318567470491295830715064501650960027942932791228052342201219484232890267220,
  -123154068210322208698692175221843116173392482638529890316335346542962562114164882505889442315555964310825713859365494450730407180,
  -95882770479231449777052479989423280850917788278696899905746939870643674993231354273717008370418552439130713989100807346981536071,
  -68539295204221154986981238357206066909007920410886734828112796297913066460651785521151712770510946572359410707992159961975966405,
  -41144225696324108949534944033882857388279077139331827386341304445310332620017596700552787803766869052778307157303340735829467430,
  -13718184105095466798315946292586639729554908133465336959223806852115794939011289853258330706647329248520407645704776202714826819,
  13718184105095466798315946292586639729554908133465336959223806852115794939011289853258330706647329248520407645704776202714826819,
  41144225696324108949534944033882857388279077139331827386341304445310332620017596700552787803766869052778307157303340735829467430,
  68539295204221154986981238357206066909007920410886734828112796297913066460651785521151712770510946572359410707992159961975966405,
  95882770479231449777052479989423280850917788278696899905746939870643674993231354273717008370418552439130713989100807346981536071,
  123154068210322208698692175221843116173392482638529890316335346542962562114164882505889442315555964310825713859365494450730407180,
  150332659419454834963035869537881740210769561254854843318567470491295830715064501650960027942932791228052342201219484232890267220,
  177398084915156588710924650074207730496130663119168850563917157026227192638543077139261313798816894992385804492371559455047963750,
  204329970693559152418800717163766963651861734558696757958194094244171102824086108251077869632041574807208124626422688000652178750,
  231108043275310683426753063243370356017524847217076280300669949215677495276196007739656326860912517878471869631007165853344388850,
  257712144966816218148052742693288124108722483244212386026568986202886903433384287583059486592557478705865008198599507575629067020,
  284122249034318257445567669998304879721089496054732365088802332308455809479594359219079164575200675251032068193134837273660979770,
  310318474779394975960515910910449287358682026220535076539211720812855813237628486633095502676340376974252128588980086625241241490,
  336281102504527710558946185994289345249319886659779085086576768429348237708919850775113356380929285675988732484429697070784477660,
  361990588357472138782697350892754816348927476773742095910503072767055522398999260889714538147398475171339892920434506521698407640,
  387427579043258795122138510043048625528795769526323811620527626493619385148768535341056977193955053780169366282851980370800794260,
  412572926392748222599867806323823735215930115056414258572898586801278240393289760614414805265429864415564089656845697041622586700,
  437407701776774044831271018406092410068250864623138626992357268759361467636707024833066113288819105077784624547351262541032140870,
  461913210355023488481565286256659120303927929901026167914540170507181097337966999449543553764344266957296106562647902700152895130,
  486071005148929300840078428498498329006963610403392100030106653905771673642634528444865880212312967258664446105306446687488038940,
  509862900927979499054669376583016609360447955031626724085253345175991866572704140216587330546951459926335398208715637477124626700,
  533270987898991857513955281680979184159550945092342846481295589938857231016122209623228032622351427562286636587171408255063971490,
  556277645188048383312703657845297527197774102794869986071954408988352663672071284616871450966217917502788821943271684284923637770,
  578865554104941136531691728874450469930443713952655393175026372620969076590882386314392132607706287318857612801357177117411631370,
  601017711180144506753357357423908665212691687824299033909774927788475304065677649474748037340315636372142913291029009212056141760,
  622717440964500339370534104486320497457451897864500935502917275141044987490467015330738157232497739384732453794698912044344570610,
  643948408581980989792274289382833708235646421161939954531985802637368598954755526800924968658981785897973136507717140523781822970,
  664694632026081341542104658059092458896759532466943116829389726770302217860318977948576456164254215282880507603610588345588983960,
  684940494190583923162509343024332905339123569302646951388820556655711326747804923954843464434661800543425980226515138665621465240,
  704670754625641364334850156556116277179864990709195832014087125136180415358662367493700125614574152593285252417817188188882444180,
  723870561010327408755418021235267052837626476522786111647803227906525592852980487891520665193486368116938903281924084942673955650,
  742525460333021417104653855804412072182547422477460747196838630893574394445635605946984370658210471342408425496823497484692358900,
  760621409771211620667307798838115117916335845135263033366435833671552436795549224235801351077886092200818475162816945664389641620,
  778144787262529209157106879922139922649966178777288090693188614186703947703015529527377900112955768280729220488371405177330919200,
  795082401759058560318061563382707614192551085702046462513061440005333560617597618461786183344379604997703317744284743899167273960,
  811421503157208485121090913835102712330878846079527731323760716639031256812455694945126735359617521135250398507646371368468770620,
  827149791895675272866015058334796897401607890665888491020767868489474408882321250817995259392163973132975673994297678529610879850,
  842255428214280679922753798852999457334937772725575177615284887958866884030598695146381045710988286427973413493205465299808812840,
  856727041066727093592257888997021151394276993403292443948349558718910845928848739218464086857730261946152852778152804571685329370,
  870553736680578499567980485384426022232694512270727316863964711158177596312712011350298818544614816212083961843131997252255443590,
  883725106758050699151536213557577889741887253017683161051599493556286712790630647126869684210175246173536920877333525119258325520,
  896231236311479527177644319870947871045829664496789260454885525440972871313219406997691213737030165219491743586702126707574293920,
  908062711127635445832902119263306249893014627155366294523329462568369373696292266139299835608052786831415939216483826518268908910,
  919210624855374030892327999266477380478775376462499787968789902518748132142072406255131200239532890977299043347684218290979003140,
  929666585711468359401147474743798863979508986910566885487170918348753076011603658123615374456816779372689103000078351465377742260,
  939422722799888584464816941673422827453187193816095317713629182622399666195924466071234962592157346870807363520237902294879272730,
  948471692040332578202730277214646776283545961851661368468575249233197715096956231261028832185972908982325480683745763527240164700,
  956806681702591398606988373621599736223353770334672131436962514868138549127610340815191495674937365295910367792962270939977781740,
  964421417544632098399966688727726560861842395924103254266314933458958262640172600595331199489298870787074846715996217518367734270,
  971310167554771027428065563187358063473059652606938617399511016085365675965636685347866485423727628999288752404515788598982038230,
  977467746303751014829958900765114052928010404057685770627070656551374578252283306493127505253774097361369311789906622601923298840,
  982889518925946334907620611731258998181647650572797304130480545682662180038151342491173685598589749484053863700103596950231563040,
  987571404786302057270857637468076696019082294253051210199726804032952758955510196396110735461841412761502247375886505965306840080,
  991509881009515731812533603537734368085540893693732480206747508566257779704769211732883723172365175050801421431609132167880966150,
  994701986506958848874733483315915706199856075540672348424539988736552953678665904387500651677328753322748909282084822548883221140,
  997145329378365964618624088781584851390299230717062858506983231019009073290790455843966855956553471484471160901276400011998190470,
  998838116462072463146135280831403512839674063936492053273396848187777918295996633301316917665576491750355401971095367425271724280,
  999779449796201071272506829181941281094273095020661395052932698569644596399083193958904108123010296297988355666264064607236546330]

/-- `case 114` (Util/Gauss_Legendre_Nodes_and_Weights.hpp:31846-32362), `weights`. -/
def weights114 : List Nat := [
  565982238765228569494133605778112630888232761943911715956997815106360418918968236086900000000000000000000000000000000000000000,
  1317085444983914537956389517195435757156789976529888919196907244907951502191595232963000000000000000000000000000000000000000000,
  2068310215713730439571490779556093121905679999290509216233707950693736599011412010550000000000000000000000000000000000000000000,
  2818074728293486719285016615864621597926277868698236614506947332813060468398418204740000000000000000000000000000000000000000000,
  3565737304777947046458028204433771919685194143983654110034704009200815694351702580850000000000000000000000000000000000000000000,
  4310721526556567956270238099272830153185163733141916975669473291951438308731520330550000000000000000000000000000000000000000000,
  5052462985577083848833515563096465160858392997286564593524465888286180094593847606400000000000000000000000000000000000000000000,
  5790402095256007337896222779839220759595242672567870635484182123783116886329664894080000000000000000000000000000000000000000000,
  6523982864314460822127682206293901248357360609211659022571412287903319537270599243920000000000000000000000000000000000000000000,
  7252652851511254447264836300296326545193584848318192046539381563264385930757431873180000000000000000000000000000000000000000000,
  7975863424793268616967292741260850169415136932379205958408912602302236052740227188780000000000000000000000000000000000000000000,
  8693070113693919195792821220640483493461643375621819458660290888811310916923901418805000000000000000000000000000000000000000000,
  9403732993191098004277344370580515239610645310679060126372869015096363795959673077654000000000000000000000000000000000000000000,
  10107317078020788183624348183003919882347845907585594964384197590009340211548962480348000000000000000000000000000000000000000000,
  10803292719345734201868847983505101468942319379512845225558263363182468099064881647620000000000000000000000000000000000000000000,
  11491136000262212246528843352735362162865752730765215713777971194306574503810361012543000000000000000000000000000000000000000000,
  12170329128417031526146129339066444949293858314129896474478021484093433891702343644036500000000000000000000000000000000000000000,
  12840360824762565655013841073228336173262792440838180366926671278610735517656733153748000000000000000000000000000000000000000000,
  13500726707819429406710784592075325446424068043006323059509228781546327229849091472968330000000000000000000000000000000000000000,
  14150929672980986204194695331815315162061859187011462570293758775090345125980611208211670000000000000000000000000000000000000000,
  14790480266478064791436915273118082071181840327617900220542344963645808525879002766286811000000000000000000000000000000000000000,
  15418897053668182861402239434505832307985921806876832591566874616178305189081420275681830900000000000000000000000000000000000000,
  16035706981340497511323913071052297160425974016294294805911462984341760949555572155950600700000000000000000000000000000000000000,
  16640445733744864852130863335993871599917870000616880261830272737382122609450969820273207260000000000000000000000000000000000000,
  17232658082065402905939767184291416142595018678276444118469020849713088791444160423057614520000000000000000000000000000000000000,
  17811898227068196550303212251384517103336663535323297869061811604722971293217739327343053055000000000000000000000000000000000000,
  18377730134660533175347157551869703576807933091518226232201162173862416779011275407052352640200000000000000000000000000000000000,
  18929727864106011683705474906319842778811261397106676007356382861602169437363732995646485547900000000000000000000000000000000000,
  19467475888646418800387759727657508514576073175865800229440853415286704000608751407415971695660000000000000000000000000000000000,
  19990569408287641440689068014421641151508689013297035984677071127459800237140621058663826499173000000000000000000000000000000000,
  20498614654513214227092101358946439306356709839271454073933003906099379841945556461839278260960800000000000000000000000000000000,
  20991229186695465224298046113430772216030793246056011493709989056685086189232990414889190492555690000000000000000000000000000000,
  21468042179980666865621558685848985380145350899500882682944044667673801528771894921068422432959370000000000000000000000000000000,
  21928694704431150080820991125237442376997248759706236249231234358728375005261412347033177894380539000000000000000000000000000000,
  22372839995214013323972640962101455058675093727457081258663558542054797641205953892655346714149487100000000000000000000000000000,
  22800143713632862762548678357977282835471542849459091761121632099859891494532904060348982221801110560000000000000000000000000000,
  23210284198805958905766202415648164119978337342947046872683570426628510862284103837799743275739754677000000000000000000000000000,
  23602952709801218992286245208573449408956267154511099185749441292714597691395963077549077695582242445200000000000000000000000000,
  23977853658045732105647651849390119332031412113251664998710327299650007788449742793662423088000588105390000000000000000000000000,
  24334704829834782479372756186896297864471463923872692402613540358546633897870519529099850347210267723138000000000000000000000000,
  24673237598772842106170955666149725740742767710711456660446992762968934438411537733600399958247032885391800000000000000000000000,
  24993197127986582238129460714903977424625650228338014845945734388354741743410479891998405100424145599072812000000000000000000000,
  25294342561957659846496245013763299280163891764366199543157757137513363881641074430110115420168934363069677900000000000000000000,
  25576447207830854440055561944020978059006233198770416418744215306720860479295526245027396007954400031841591500000000000000000000,
  25839298706061057393259522650179271400928033658693032144847055667601194682192748990805562412224707184444261294000000000000000000,
  26082699190270644474204728864369240667406600758202965227369775161884499916609540515090608232698888634416729041700000000000000000,
  26306465436196886786573715055268399942119752448694056292405583212830712228065996513259842256945227512353870685862000000000000000,
  26510428999617269910646018934722589190369977143906462052165934916881562687484185351810691214130136552585648873034000000000000000,
  26694436343148889594288658718937006741106666026689364093004472872369244997943142593961557074168940221055920854593940000000000000,
  26858348951826468756626106811713910072145491753582720951376863163063746002419522459781827128610365280996690950194403500000000000,
  27002043437371988593013094355809673831626829988408739013711957570349735459827355912482144013416274457000701450579094190000000000,
  27125411631077439906302901213730170913063152556109188225880661076205860402271166132266184905967304206126294800375465318000000000,
  27228360665230773070136009308786115724174343679074090581534608840988149534557802098666374377738672360244352627906807695520000000,
  27310813043023749834801746896806517408590820610823084116955303417479232756807818313386773096929856022196912712000310251534000000,
  27372706696889071048043999378785671716362351894704897935535911341732698909670439131379680381601870384003188840825198029979220000,
  27413995035222864774782736504525352977688747779590667945261400325146939764030114569611372119666892909460544387795444463734117000,
  27434646977457362720092793093324545561179382668005986883149809014112791575865315625419645113867864033042322174690736853216074340,
  27434646977457362720092793093324545561179382668005986883149809014112791575865315625419645113867864033042322174690736853216074340,
  27413995035222864774782736504525352977688747779590667945261400325146939764030114569611372119666892909460544387795444463734117000,
  27372706696889071048043999378785671716362351894704897935535911341732698909670439131379680381601870384003188840825198029979220000,
  27310813043023749834801746896806517408590820610823084116955303417479232756807818313386773096929856022196912712000310251534000000,
  27228360665230773070136009308786115724174343679074090581534608840988149534557802098666374377738672360244352627906807695520000000,
  27125411631077439906302901213730170913063152556109188225880661076205860402271166132266184905967304206126294800375465318000000000,
  27002043437371988593013094355809673831626829988408739013711957570349735459827355912482144013416274457000701450579094190000000000,
  26858348951826468756626106811713910072145491753582720951376863163063746002419522459781827128610365280996690950194403500000000000,
  26694436343148889594288658718937006741106666026689364093004472872369244997943142593961557074168940221055920854593940000000000000,
  26510428999617269910646018934722589190369977143906462052165934916881562687484185351810691214130136552585648873034000000000000000,
  26306465436196886786573715055268399942119752448694056292405583212830712228065996513259842256945227512353870685862000000000000000,
  26082699190270644474204728864369240667406600758202965227369775161884499916609540515090608232698888634416729041700000000000000000,
  25839298706061057393259522650179271400928033658693032144847055667601194682192748990805562412224707184444261294000000000000000000,
  25576447207830854440055561944020978059006233198770416418744215306720860479295526245027396007954400031841591500000000000000000000,
  25294342561957659846496245013763299280163891764366199543157757137513363881641074430110115420168934363069677900000000000000000000,
  24993197127986582238129460714903977424625650228338014845945734388354741743410479891998405100424145599072812000000000000000000000,
  24673237598772842106170955666149725740742767710711456660446992762968934438411537733600399958247032885391800000000000000000000000,
  24334704829834782479372756186896297864471463923872692402613540358546633897870519529099850347210267723138000000000000000000000000,
  23977853658045732105647651849390119332031412113251664998710327299650007788449742793662423088000588105390000000000000000000000000,
  23602952709801218992286245208573449408956267154511099185749441292714597691395963077549077695582242445200000000000000000000000000,
  23210284198805958905766202415648164119978337342947046872683570426628510862284103837799743275739754677000000000000000000000000000,
  22800143713632862762548678357977282835471542849459091761121632099859891494532904060348982221801110560000000000000000000000000000,
  22372839995214013323972640962101455058675093727457081258663558542054797641205953892655346714149487100000000000000000000000000000,
  21928694704431150080820991125237442376997248759706236249231234358728375005261412347033177894380539000000000000000000000000000000,
  21468042179980666865621558685848985380145350899500882682944044667673801528771894921068422432959370000000000000000000000000000000,
  20991229186695465224298046113430772216030793246056011493709989056685086189232990414889190492555690000000000000000000000000000000,
  20498614654513214227092101358946439306356709839271454073933003906099379841945556461839278260960800000000000000000000000000000000,
  19990569408287641440689068014421641151508689013297035984677071127459800237140621058663826499173000000000000000000000000000000000,
  19467475888646418800387759727657508514576073175865800229440853415286704000608751407415971695660000000000000000000000000000000000,
  18929727864106011683705474906319842778811261397106676007356382861602169437363732995646485547900000000000000000000000000000000000,
  18377730134660533175347157551869703576807933091518226232201162173862416779011275407052352640200000000000000000000000000000000000,
  17811898227068196550303212251384517103336663535323297869061811604722971293217739327343053055000000000000000000000000000000000000,
  17232658082065402905939767184291416142595018678276444118469020849713088791444160423057614520000000000000000000000000000000000000,
  16640445733744864852130863335993871599917870000616880261830272737382122609450969820273207260000000000000000000000000000000000000,
  16035706981340497511323913071052297160425974016294294805911462984341760949555572155950600700000000000000000000000000000000000000,
  15418897053668182861402239434505832307985921806876832591566874616178305189081420275681830900000000000000000000000000000000000000,
  14790480266478064791436915273118082071181840327617900220542344963645808525879002766286811000000000000000000000000000000000000000,
  14150929672980986204194695331815315162061859187011462570293758775090345125980611208211670000000000000000000000000000000000000000,
  13500726707819429406710784592075325446424068043006323059509228781546327229849091472968330000000000000000000000000000000000000000,
  12840360824762565655013841073228336173262792440838180366926671278610735517656733153748000000000000000000000000000000000000000000,
  12170329128417031526146129339066444949293858314129896474478021484093433891702343644036500000000000000000000000000000000000000000,
  11491136000262212246528843352735362162865752730765215713777971194306574503810361012543000000000000000000000000000000000000000000,
  10803292719345734201868847983505101468942319379512845225558263363182468099064881647620000000000000000000000000000000000000000000,
  10107317078020788183624348183003919882347845907585594964384197590009340211548962480348000000000000000000000000000000000000000000,
  9403732993191098004277344370580515239610645310679060126372869015096363795959673077654000000000000000000000000000000000000000000,
  8693070113693919195792821220640483493461643375621819458660290888811310916923901418805000000000000000000000000000000000000000000,
  7975863424793268616967292741260850169415136932379205958408912602302236052740227188780000000000000000000000000000000000000000000,
  7252652851511254447264836300296326545193584848318192046539381563264385930757431873180000000000000000000000000000000000000000000,
  6523982864314460822127682206293901248357360609211659022571412287903319537270599243920000000000000000000000000000000000000000000,
  5790402095256007337896222779839220759595242672567870635484182123783116886329664894080000000000000000000000000000000000000000000,
  5052462985577083848833515563096465160858392997286564593524465888286180094593847606400000000000000000000000000000000000000000000,
  4310721526556567956270238099272830153185163733141916975669473291951438308731520330550000000000000000000000000000000000000000000,
  3565737304777947046458028204433771919685194143983654110034704009200815694351702580850000000000000000000000000000000000000000000,
  2818074728293486719285016615864621597926277868698236614506947332813060468398418204740000000000000000000000000000000000000000000,
  2068310215713730439571490779556093121905679999290509216233707950693736599011412010550000000000000000000000000000000000000000000,
  1317085444983914537956389517195435757156789976529888919196907244907951502191595232963000000000000000000000000000000000000000000,
  565982238765228569494133605778112630888232761943911715956997815106360418918968236086900000000000000000000000000000000000000000]

/-- `case 115` (Util/Gauss_Legendre_Nodes_and_Weights.hpp:32364-32882), `nodes`. -/
def nodes115 : List Int := [
  -999783252153536212497796875378184973654011247974113690716854630211828561433379284668542931536514955473372363206056892946959829150,
  -998858144623131191419139967645567620584712875075904449813568944488171270580667825305697302619737092084303241071358808067621381140,
  -997194523581318968713159757366140328815916694775912367151739634208026771275982740181755129277051683774908599616219708582121654370,
  -994793249934071450308372846434684707811369250556789352295498724041099507523133872604962587718119013963932320881613532049819216880,
  -991656054807008225357691270395862076206042540431947709259087493823498698554213531177270214230227508881447462533297722588327988850,
  -987785248242058943764412442567276029696662811914183600446979663553419608599740158374721056805848407834110435664102094586311815280,
  -983183690217409437437793515803797236888026079429371603480677538706264431410318947741733143448758199326864983966104463708899192450,
  -977854783448272723069069260913807924191333407141802734014414329630056311232872522492031821086003002030264513212874792177530256080,
  -971802469518306185499412341652422958527436409426819766815980224682369267811634048281623741688652361289474576261663538975123754310,
  -965031225514151597820121289726144063204115962802399073175886097895698021078449380355261470287644349000346708335134725218351756970,
  -957546060538442175585820457153737246631201428022804445986995610348557930942542598480278825950139516095828259985645794826082618520,
  -949352511927681127492317050236467883354332692674866147187821124926556345999547812930219348046539967445389267882801206731759568830,
  -940456641119214801067779014446073991824389639063154337711349772383841580995403871969790574601046195820846231645798011251843212060,
  -930865029148246396172899192818843554050985247896293348543697400924207535956068583850681008060876244070417494594915894791493232800,
  -920584771769000392203944629163170529862886726494665203782577975836484053160431396448796619781651460966869212093559191558543658880,
  -909623474199479320977883276493256596231233081218647654851511903993714786610420340008625073350480993173776752338526464277743860570,
  -897989245491687448797872238227252435627256545091537255275527509909603741319926847577998288582294047810511357398095692966500144230,
  -885690692530457747109059291256536704457952453582869860818101192788271553102533178078908563774780450404496050924932387231981981470,
  -872736913664770626182494706301215915052933921192402853322848065565986059245285127402455799845969047427119015014423785170575221680,
  -859137491975968116750613157691438116051093572362908825682787373934090497071039866970516706807142029009514915655240349791309256210,
  -844902488187665382357022801976614803233699796398026585550454726302740971804237414778964270412845239778486417237122080068915598860,
  -830042433222498204172276573433931729623312418866269751777540022307508732416205431169261577942010137445356117300015892537327892820,
  -814568320411147373817163154493854932303372067556441430523876010577130682037963898468934928556039040985072778440433071718008996070,
  -798491597359362367271518558801793754265744025171718814692218276227989647838851737951493696442797723681053850806933824413917602330,
  -781824157478974340953426980046790758668192327217925085168711234813115375602958776853712817005024965556177402576282692322005750720,
  -764578331189146168613247691809518915861949386162067468145675633285603423961158525088253527738213004684957121386996928465259288210,
  -746766876794356968188503095447735919138363599632558541953095301780747793377914823392212050538126695793617563946534823292549878740,
  -728402971045861455720497078140616198603448108284145873604273627299346715918974117053294841447085322108760485150157503591331696890,
  -709500199393601091692043295174602798084904808074870580625725670493980619966389279422653370094458574585366156458106380870137351610,
  -690072545935774639886890327032733972437062887438883710818721548597282845263852688239440555711818440358417408484029894366733747940,
  -670134383073500554242420419384094564850261877860474901508015391641354615467630399172819741193765779856817808344281591514255876890,
  -649700460878222558062599907867847474993282799261108082189144013855449560901956283803254829519102271242986775995711107922271482790,
  -628785896179722835147235869973354815862642914839169629267103164455534944984114992819339820904756183314544961681581352370947818920,
  -607406161382814330935742402305922445487332403549760941586308329461303105185901313034390920318604339486123118759714467688478170700,
  -585577073020984659799541214494366657208526969710951575652620778403910415334525838967902298770593491922432410126583263183955701300,
  -563314780055458916504956639920588349489773434269588517598980989271085686069038086310095297035878062812421590699190911779754040020,
  -540635751928337173933775375058875144438118074222409814535005788753366683798061982616327358529951976231031956830886527001309846780,
  -517556766378644491372557619753495243209000699867365791220986551801935766038432888843080757198047399207708704868907017344078612400,
  -494094897030306734110353392330796991400223680559077219953866245326514386473458368505638324349892170110226545077562821490002608830,
  -470267500761234293434414406896642263795396834082143790044141346057891777010333320873406861318241398504546317751487403820078638040,
  -446092204862857776864165063237983921262910363125117365087436680955993148063743531094365446337608841672120440164526940213357103680,
  -421586893999614795616057141603194225931496458443612452694847015814425103049654361041775055703160861575988298374887888271862762500,
  -396769696978034997908355673602456715106637583485156376182354543097304132455170931235582657433935811449541498448058786250093203140,
  -371658973335211375312729776646302310151170690367849885148777983996691224417489613749359218722922163655335166532036789286846977710,
  -346273299756579502205404187520302510052471492905340397574858798092901799878725892663280566125275136564532262512588613501043465170,
  -320631456333052657706480046167888568975516837780062181880591586497525818370596007147691970165257251720679100661985360385228353030,
  -294752412667679632716976287818250517235097798535123075007491836302477640442032065412823972670957580837913947222900777860986515740,
  -268655313842103354461044367445907799750105771222639581213149079441519005780490144903812201916161337436813879042694049734498528050,
  -242359466253202185422622126423780745680479247227357500012594679441080291364568824860122907364752159595626906103335702223311950160,
  -215884323330391796352931018066235439586786245225398208511848034480475910729036507586404067225243703697076086507953347830978960160,
  -189249471144153803338265020647796656802116179736543364185542425464465511669296147782531334908005060145541854377098106108163907670,
  -162474613916437831649219895373730939205522177654697646161265211443341167785844251562463100124987739955872328235235852191651337110,
  -135579559443656264871154811792367466174137562245534953983371036289890118030256208761513857277202610651015595713254514505823388610,
  -108584204443055603060264623960279204945561036076441207676709524128624996640765345307519257248924106565967476844066027281442280800,
  -81508519833305040637890587775536236192036381067229633234604845741582180583576505295127017616104781753223617091769851557409816700,
  -54372535960191541565611238371094465749048967606162106074892320436843153886590274740260881267926590949138693774887046654603717309,
  -27196327778351300089141627112548117820874113271153790108118962948645955759518049325846353474056815789876991151500565593238653368,
  0,
  27196327778351300089141627112548117820874113271153790108118962948645955759518049325846353474056815789876991151500565593238653368,
  54372535960191541565611238371094465749048967606162106074892320436843153886590274740260881267926590949138693774887046654603717309,
  81508519833305040637890587775536236192036381067229633234604845741582180583576505295127017616104781753223617091769851557409816700,
  108584204443055603060264623960279204945561036076441207676709524128624996640765345307519257248924106565967476844066027281442280800,
  135579559443656264871154811792367466174137562245534953983371036289890118030256208761513857277202610651015595713254514505823388610,
  162474613916437831649219895373730939205522177654697646161265211443341167785844251562463100124987739955872328235235852191651337110,
  189249471144153803338265020647796656802116179736543364185542425464465511669296147782531334908005060145541854377098106108163907670,
  215884323330391796352931018066235439586786245225398208511848034480475910729036507586404067225243703697076086507953347830978960160,
  242359466253202185422622126423780745680479247227357500012594679441080291364568824860122907364752159595626906103335702223311950160,
  268655313842103354461044367445907799750105771222639581213149079441519005780490144903812201916161337436813879042694049734498528050,
  294752412667679632716976287818250517235097798535123075007491836302477640442032065412823972670957580837913947222900777860986515740,
  320631456333052657706480046167888568975516837780062181880591586497525818370596007147691970165257251720679100661985360385228353030,
  346273299756579502205404187520302510052471492905340397574858798092901799878725892663280566125275136564532262512588613501043465170,
  371658973335211375312729776646302310151170690367849885148777983996691224417489613749359218722922163655335166532036789286846977710,
  396769696978034997908355673602456715106637583485156376182354543097304132455170931235582657433935811449541498448058786250093203140,
  421586893999614795616057141603194225931496458443612452694847015814425103049654361041775055703160861575988298374887888271862762500,
  446092204862857776864165063237983921262910363125117365087436680955993148063743531094365446337608841672120440164526940213357103680,
  470267500761234293434414406896642263795396834082143790044141346057891777010333320873406861318241398504546317751487403820078638040,
  494094897030306734110353392330796991400223680559077219953866245326514386473458368505638324349892170110226545077562821490002608830,
  517556766378644491372557619753495243209000699867365791220986551801935766038432888843080757198047399207708704868907017344078612400,
  540635751928337173933775375058875144438118074222409814535005788753366683798061982616327358529951976231031956830886527001309846780,
  563314780055458916504956639920588349489773434269588517598980989271085686069038086310095297035878062812421590699190911779754040020,
  585577073020984659799541214494366657208526969710951575652620778403910415334525838967902298770593491922432410126583263183955701300,
  607406161382814330935742402305922445487332403549760941586308329461303105185901313034390920318604339486123118759714467688478170700,
  628785896179722835147235869973354815862642914839169629267103164455534944984114992819339820904756183314544961681581352370947818920,
  649700460878222558062599907867847474993282799261108082189144013855449560901956283803254829519102271242986775995711107922271482790,
  670134383073500554242420419384094564850261877860474901508015391641354615467630399172819741193765779856817808344281591514255876890,
  690072545935774639886890327032733972437062887438883710818721548597282845263852688239440555711818440358417408484029894366733747940,
  709500199393601091692043295174602798084904808074870580625725670493980619966389279422653370094458574585366156458106380870137351610,
  728402971045861455720497078140616198603448108284145873604273627299346715918974117053294841447085322108760485150157503591331696890,
  746766876794356968188503095447735919138363599632558541953095301780747793377914823392212050538126695793617563946534823292549878740,
  764578331189146168613247691809518915861949386162067468145675633285603423961158525088253527738213004684957121386996928465259288210,
  781824157478974340953426980046790758668192327217925085168711234813115375602958776853712817005024965556177402576282692322005750720,
  798491597359362367271518558801793754265744025171718814692218276227989647838851737951493696442797723681053850806933824413917602330,
  814568320411147373817163154493854932303372067556441430523876010577130682037963898468934928556039040985072778440433071718008996070,
  830042433222498204172276573433931729623312418866269751777540022307508732416205431169261577942010137445356117300015892537327892820,
  844902488187665382357022801976614803233699796398026585550454726302740971804237414778964270412845239778486417237122080068915598860,
  859137491975968116750613157691438116051093572362908825682787373934090497071039866970516706807142029009514915655240349791309256210,
  872736913664770626182494706301215915052933921192402853322848065565986059245285127402455799845969047427119015014423785170575221680,
  885690692530457747109059291256536704457952453582869860818101192788271553102533178078908563774780450404496050924932387231981981470,
  897989245491687448797872238227252435627256545091537255275527509909603741319926847577998288582294047810511357398095692966500144230,
  909623474199479320977883276493256596231233081218647654851511903993714786610420340008625073350480993173776752338526464277743860570,
  920584771769000392203944629163170529862886726494665203782577975836484053160431396448796619781651460966869212093559191558543658880,
  930865029148246396172899192818843554050985247896293348543697400924207535956068583850681008060876244070417494594915894791493232800,
  940456641119214801067779014446073991824389639063154337711349772383841580995403871969790574601046195820846231645798011251843212060,
  949352511927681127492317050236467883354332692674866147187821124926556345999547812930219348046539967445389267882801206731759568830,
  957546060538442175585820457153737246631201428022804445986995610348557930942542598480278825950139516095828259985645794826082618520,
  965031225514151597820121289726144063204115962802399073175886097895698021078449380355261470287644349000346708335134725218351756970,
  971802469518306185499412341652422958527436409426819766815980224682369267811634048281623741688652361289474576261663538975123754310,
  977854783448272723069069260913807924191333407141802734014414329630056311232872522492031821086003002030264513212874792177530256080,
  983183690217409437437793515803797236888026079429371603480677538706264431410318947741733143448758199326864983966104463708899192450,
  987785248242058943764412442567276029696662811914183600446979663553419608599740158374721056805848407834110435664102094586311815280,
  991656054807008225357691270395862076206042540431947709259087493823498698554213531177270214230227508881447462533297722588327988850,
  994793249934071450308372846434684707811369250556789352295498724041099507523133872604962587718119013963932320881613532049819216880,
  997194523581318968713159757366140328815916694775912367151739634208026771275982740181755129277051683774908599616219708582121654370,
  998858144623131191419139967645567620584712875075904449813568944488171270580667825305697302619737092084303241071358808067621381140,
  999783252153536212497796875378184973654011247974113690716854630211828561433379284668542931536514955473372363206056892946959829150]

/-- `case 115` (Util/Gauss_Legendre_Nodes_and_Weights.hpp:32364-32882), `weights`. -/
def weights115 : List Nat := [
  556224873199560272607664104663357353978346892352500425587242451864830208730078308256000000000000000000000000000000000000000000,
  1294386288749652167408622207873129508751451977654243329519355390430949582022713066853000000000000000000000000000000000000000000,
  2032683962027742699574760193124742052620025773560172269221017773024471171215771825510000000000000000000000000000000000000000000,
  2769572907198824838599298721950171017244637704070386884383297364090622767579529515070000000000000000000000000000000000000000000,
  3504432034555927121372217325852191888635510407447497569469460084110350616413272095180000000000000000000000000000000000000000000,
  4236704334967539482885257017488977347180456172142159487901810975306781127213012366300000000000000000000000000000000000000000000,
  4965844534998237216742606937883942879387363751812569547624445570070274814115556328120000000000000000000000000000000000000000000,
  5691312017660490878638535330458742109750024775054422325375874572530750429847501916940000000000000000000000000000000000000000000,
  6412569603374124160563563891538154266227822560947308933489102552875699360570284354700000000000000000000000000000000000000000000,
  7129083491570064201509357540938588717591568599291004646297392197587433134255989296190000000000000000000000000000000000000000000,
  7840323501585872974420150951545041061443105604003562651384085732031726304908303806250000000000000000000000000000000000000000000,
  8545763405340213751420174075774031374013911830605650257338353914776791178860934422540000000000000000000000000000000000000000000,
  9244881291078337887165971507348108185419409065046285412763887373685105629067589593490000000000000000000000000000000000000000000,
  9937159937562138898885546246457169790349527809551787089086510797407584198639057814980000000000000000000000000000000000000000000,
  10622087190758861910290861282355613511265786412052552642864501016925376675445246970416000000000000000000000000000000000000000000,
  11299156339587009469898756107483875754464604171443241333028131499022018904106194074621000000000000000000000000000000000000000000,
  11967866489036024514637077041380895317919054486820991824420598179308804857740747956403500000000000000000000000000000000000000000,
  12627722929718757901588923889583640009559798602583940343319656905106590678948735844854700000000000000000000000000000000000000000,
  13278237503251423028304887044120960369977194776994345364754035133635267463035059416454200000000000000000000000000000000000000000,
  13918928963017230867062660950005976592415942810820224619195743683481274083263190293666530000000000000000000000000000000000000000,
  14549323329952384328664516677237959258618327974014698602904809796673391593045156816291348000000000000000000000000000000000000000,
  15168954243037968817735333524949663221786041308266504495175922868499175591206930835515246000000000000000000000000000000000000000,
  15777363304207450552640706344509788171388724550743562314419670792284919617780099411970881300000000000000000000000000000000000000,
  16374100417396064286762686703599889477856341098800450304081749053480762938924677695787245800000000000000000000000000000000000000,
  16958724121469867286391956098198401858034654063394041022258306340553190987605575190425801700000000000000000000000000000000000000,
  17530801916780999455316172321401436132183405935462391444344586504234343122220030499950022570000000000000000000000000000000000000,
  18089910585102971174453816799993159982092161862518678359580220178707454578846327315598040418000000000000000000000000000000000000,
  18635636502706287785524140842807821951602232707809625026503553028549495388726313988670619848200000000000000000000000000000000000,
  19167575946340799551108438673347204280534035541404155140475927462005961491358212772451218362960000000000000000000000000000000000,
  19685335391897060877799404298865379402502907225425433148922173448569135095786705050141265068130000000000000000000000000000000000,
  20188531805524822781258490094033216924845713890801069920639542477306579849109768141957617276515000000000000000000000000000000000,
  20676792926992645086396202993283225992001483768009248129002385942586571870441807246097255569696000000000000000000000000000000000,
  21149757545078545552330682370795975217157405025132141773849820258309493452630941891523877842487410000000000000000000000000000000,
  21607075764787629105196463578242762774537164117222602020362801326199086821763677905980960723419708000000000000000000000000000000,
  22048409266198777290390208145181408997857017108344016351324835054751047698041693565095823272361956800000000000000000000000000000,
  22473431554748734395910131806109889231382212881828370573543423842043850776978558030095094450876865320000000000000000000000000000,
  22881828202768306373422366429666790279890274837713122460696972883227200392779690610051132761255780011000000000000000000000000000,
  23273297082091892667678070284126534203940949355814417285009510237036291859016554506670185120111169702800000000000000000000000000,
  23647548587568198384855790186857648309099113129938391174778975398426084422177187619509040740502103426940000000000000000000000000,
  24004305851306722601874139240794320641991484799070396921889119106459444626756608425196852409906955938354000000000000000000000000,
  24343304947501484855287978724095984907327607088212644175120294548763388046187620516414193429128633017369400000000000000000000000,
  24664295087680432129154380130592854614107634085174810778627564195409719296906325067342333378999965203291710000000000000000000000,
  24967038806236058708247312514046663621503115973518597145876673391758813972311648418777410491035855871236482000000000000000000000,
  25251312136099966460532863693936836795776606216853791420936883425853007905699230686282460086913943063374654800000000000000000000,
  25516904774431388589177569294224475699430581013166018793387656313980631088101723978695224708225619884744216948000000000000000000,
  25763620238197090578629587488949218240669352125466864090930972026312767606790763705034845439052343879146157611300000000000000000,
  25991276009527542721660347974823337857837270824267373743164415619065623815315914429405106812176898123392685552350000000000000000,
  26199703670741823895163749960141944276721844878478665001103064985675567009097352958991414285485270947185345039278000000000000000,
  26388749028941360684458934259687178419586323996100262235482276226252001977449749753768500502938675949836891196766430000000000000,
  26558272230080323979855639271999155823187799751015566875470249850488275234018466977896045340293776516031401731227378000000000000,
  26708147862428291147895884794681952626592436333640436597276068272618412754353701855843476174655051554803590136005526400000000000,
  26838265049348630107660345360190667033239255197740909801718398484863035885269562665905448580374175938508899452225756513000000000,
  26948527531323966355429450452818968869249354090282690206907640926835849337578361372476322598648638588007556147857055109500000000,
  27038853737168049362974735528675344441597488231368812977934089627860993050087944019444654319588832006305875320933441616744000000,
  27109176844371334965298626464438845205055740187865900055787126387025780450056102693773327370889270272692235156767270946832700000,
  27159444828535639453692269864434918151144718414989892355731876207045067431235762836626663800483492839315089956875375377307508000,
  27189620501861293167702208538416048482747220725178338334505552282135444586418582097825455684599149480648586666007249061526839300,
  27199681540658320475783011804031639033456911001420523966500776121758870383891798359434667661703578126412301364533464494411966114,
  27189620501861293167702208538416048482747220725178338334505552282135444586418582097825455684599149480648586666007249061526839300,
  27159444828535639453692269864434918151144718414989892355731876207045067431235762836626663800483492839315089956875375377307508000,
  27109176844371334965298626464438845205055740187865900055787126387025780450056102693773327370889270272692235156767270946832700000,
  27038853737168049362974735528675344441597488231368812977934089627860993050087944019444654319588832006305875320933441616744000000,
  26948527531323966355429450452818968869249354090282690206907640926835849337578361372476322598648638588007556147857055109500000000,
  26838265049348630107660345360190667033239255197740909801718398484863035885269562665905448580374175938508899452225756513000000000,
  26708147862428291147895884794681952626592436333640436597276068272618412754353701855843476174655051554803590136005526400000000000,
  26558272230080323979855639271999155823187799751015566875470249850488275234018466977896045340293776516031401731227378000000000000,
  26388749028941360684458934259687178419586323996100262235482276226252001977449749753768500502938675949836891196766430000000000000,
  26199703670741823895163749960141944276721844878478665001103064985675567009097352958991414285485270947185345039278000000000000000,
  25991276009527542721660347974823337857837270824267373743164415619065623815315914429405106812176898123392685552350000000000000000,
  25763620238197090578629587488949218240669352125466864090930972026312767606790763705034845439052343879146157611300000000000000000,
  25516904774431388589177569294224475699430581013166018793387656313980631088101723978695224708225619884744216948000000000000000000,
  25251312136099966460532863693936836795776606216853791420936883425853007905699230686282460086913943063374654800000000000000000000,
  24967038806236058708247312514046663621503115973518597145876673391758813972311648418777410491035855871236482000000000000000000000,
  24664295087680432129154380130592854614107634085174810778627564195409719296906325067342333378999965203291710000000000000000000000,
  24343304947501484855287978724095984907327607088212644175120294548763388046187620516414193429128633017369400000000000000000000000,
  24004305851306722601874139240794320641991484799070396921889119106459444626756608425196852409906955938354000000000000000000000000,
  23647548587568198384855790186857648309099113129938391174778975398426084422177187619509040740502103426940000000000000000000000000,
  23273297082091892667678070284126534203940949355814417285009510237036291859016554506670185120111169702800000000000000000000000000,
  22881828202768306373422366429666790279890274837713122460696972883227200392779690610051132761255780011000000000000000000000000000,
  22473431554748734395910131806109889231382212881828370573543423842043850776978558030095094450876865320000000000000000000000000000,
  22048409266198777290390208145181408997857017108344016351324835054751047698041693565095823272361956800000000000000000000000000000,
  21607075764787629105196463578242762774537164117222602020362801326199086821763677905980960723419708000000000000000000000000000000,
  21149757545078545552330682370795975217157405025132141773849820258309493452630941891523877842487410000000000000000000000000000000,
  20676792926992645086396202993283225992001483768009248129002385942586571870441807246097255569696000000000000000000000000000000000,
  20188531805524822781258490094033216924845713890801069920639542477306579849109768141957617276515000000000000000000000000000000000,
  19685335391897060877799404298865379402502907225425433148922173448569135095786705050141265068130000000000000000000000000000000000,
  19167575946340799551108438673347204280534035541404155140475927462005961491358212772451218362960000000000000000000000000000000000,
  18635636502706287785524140842807821951602232707809625026503553028549495388726313988670619848200000000000000000000000000000000000,
  18089910585102971174453816799993159982092161862518678359580220178707454578846327315598040418000000000000000000000000000000000000,
  17530801916780999455316172321401436132183405935462391444344586504234343122220030499950022570000000000000000000000000000000000000,
  16958724121469867286391956098198401858034654063394041022258306340553190987605575190425801700000000000000000000000000000000000000,
  16374100417396064286762686703599889477856341098800450304081749053480762938924677695787245800000000000000000000000000000000000000,
  15777363304207450552640706344509788171388724550743562314419670792284919617780099411970881300000000000000000000000000000000000000,
  15168954243037968817735333524949663221786041308266504495175922868499175591206930835515246000000000000000000000000000000000000000,
  14549323329952384328664516677237959258618327974014698602904809796673391593045156816291348000000000000000000000000000000000000000,
  13918928963017230867062660950005976592415942810820224619195743683481274083263190293666530000000000000000000000000000000000000000,
  13278237503251423028304887044120960369977194776994345364754035133635267463035059416454200000000000000000000000000000000000000000,
  12627722929718757901588923889583640009559798602583940343319656905106590678948735844854700000000000000000000000000000000000000000,
  11967866489036024514637077041380895317919054486820991824420598179308804857740747956403500000000000000000000000000000000000000000,
  11299156339587009469898756107483875754464604171443241333028131499022018904106194074621000000000000000000000000000000000000000000,
  10622087190758861910290861282355613511265786412052552642864501016925376675445246970416000000000000000000000000000000000000000000,
  9937159937562138898885546246457169790349527809551787089086510797407584198639057814980000000000000000000000000000000000000000000,
  9244881291078337887165971507348108185419409065046285412763887373685105629067589593490000000000000000000000000000000000000000000,
  8545763405340213751420174075774031374013911830605650257338353914776791178860934422540000000000000000000000000000000000000000000,
  7840323501585872974420150951545041061443105604003562651384085732031726304908303806250000000000000000000000000000000000000000000,
  7129083491570064201509357540938588717591568599291004646297392197587433134255989296190000000000000000000000000000000000000000000,
  6412569603374124160563563891538154266227822560947308933489102552875699360570284354700000000000000000000000000000000000000000000,
  5691312017660490878638535330458742109750024775054422325375874572530750429847501916940000000000000000000000000000000000000000000,
  4965844534998237216742606937883942879387363751812569547624445570070274814115556328120000000000000000000000000000000000000000000,
  4236704334967539482885257017488977347180456172142159487901810975306781127213012366300000000000000000000000000000000000000000000,
  3504432034555927121372217325852191888635510407447497569469460084110350616413272095180000000000000000000000000000000000000000000,
  2769572907198824838599298721950171017244637704070386884383297364090622767579529515070000000000000000000000000000000000000000000,
  2032683962027742699574760193124742052620025773560172269221017773024471171215771825510000000000000000000000000000000000000000000,
  1294386288749652167408622207873129508751451977654243329519355390430949582022713066853000000000000000000000000000000000000000000,
  556224873199560272607664104663357353978346892352500425587242451864830208730078308256000000000000000000000000000000000000000000]

/-- `case 116` (Util/Gauss_Legendre_Nodes_and_Weights.hpp:32884-33408), `nodes`. -/
def nodes116 : List Int := [
  -999786957022372017562160699188125031462473076031030640249078917358914983993732689854997443436286272990387873129018974907821839970,
  -998877659387170204628350505433067008621293857334403634933373573213687260602886605885763083224093641316466053437806774876786163320,
  -997242457212908977420969967503947183867390122313428052368705046696980042546291708735054205753308989717080654241484450975575250690,
  -994882176027369448505880382509884629715982352458401438261447174661845332829126810598323719231693659836114260644837801148539972980,
  -991798487559576946169527633834632569742524127125729222080699389013778717828080061720143507536733066783265932458305850876683206800,
  -987993623459729608917040743999438793184357984739714974153500955128952151239309865770989133389872668249462456811667755508892816620,
  -983470346871665446824057705938605806600129018455641843473102320556456985041962756044662264004395335737437748663791762113260364110,
  -978231945427152230983817490213695376764805244157820016068284330103504496370195053399712356803731745620967844479415877107045167080,
  -972282227527131834904968387205324517587988232198338207867322798554541679646086540691662387993419155671138064445688487031768524350,
  -965625519130637473599285685388940419071736515483277206853220887568192736140260692837493874177300733577877581922312001993185927330,
  -958266660437299315176301521720407406394704862790409111523017749048702141503271720369208959674846531306849458558629778468221486880,
  -950211002292689320048285578225591259488800897795610395101550347234924818850505993421751605687981146536120972752409887712361830920,
  -941464402261546503041223307418586139784967473046994993740454332730371803455989125081777355769195813682852373316084518817496241970,
  -932033220350004786651461248847201818011157034897529058174019435347868819264063505902250428257398401954997398218391529635811455950,
  -921924314370870747982525999431621180586882930132814745307442606667719877226416983181591775058311055526348228562134626540959500100,
  -911145034951225062587853101612574218935509657607974734051351818728375009192669925529574102107013320127590341123423881445214490890,
  -899703220183999116719174615013685011086639376513330560655110694691004644026530076595861330477187416486354402289812927430566728940,
  -887607189926405018600034845196656526331395470568601601055518784628662002645144978223466598082422315122344745629299696225869994890,
  -874865739748823191304636382694628355067724670407537579218718439423832174787547881941396750907687873772046062161293168619646335320,
  -861488134538245060138734468050120793482216401589448880982253076941748554063748230968474758118374247540815360711503956053603338220,
  -847484101760746891766621546718834698128079992361078217984401896868863744415230352319299924404544263970701782029191742908773195950,
  -832863824387789237197482170743984823344460797963185969790393577841799036223769937506023274286396366119804140932564789679833573950,
  -817637933491421201158583444175863238722702104827160823945453551083385041823325370053995688097484639822573436280417542341238411560,
  -801817500513733294887070635824527453648276985880210183971523276927091242926645542869628356019837219113182529353699078701992741840,
  -785414029216153905539552671049789954588257971042236343788898722852348237716205559223049975701761720247887335671179001101376664790,
  -768439447314426159468611943973866243722089877387908764721748870661759262158302931477348592551578840748596793373836725622434606580,
  -750906097805336188480191913952667594290822098207865250503461541411259458731039523411592778868829001504894353668376742701716343310,
  -732826729991491624694050101086726706582096430406484981738883824666517029654779969028127268916990298753504835085269827986439873820,
  -714214490210671134580845447952558308808674404607162893420234158131920974090936814838689001281151372635118078546663105990237532750,
  -695082912276482248048072674447815044485658387172986932764402525034244736232470690657144441216907034413949934349883619249671054830,
  -675445907637275766600459247679455864725802122572486142430815643823330609293883338396982678706000328723421650713547232343783756500,
  -655317755260470668279437827299631859533282415228342331363984145956626651605803251362611192588976630540163848764423188730666887080,
  -634713091249643629539801362092539001594082163782814695855268578409938638280519131787105541375941259742306645727898367321463518080,
  -613646898201931983265707341720449094788988766128758089198061191166368776891784895524711152896434561656021177683443492303222349260,
  -592134494313488034675636068530766002266648762391078509430336005102558339602226064818249649852369879051280999897026903897089859930,
  -570191522240906057897708946385353963553487702975791237744101245616017958581934363269391308753281996653648678230823421182036579110,
  -547833937726720884206037261412019239794640837450989214802499752427022764147080859516419632881114909284122847590298404084420013850,
  -525077997997248654317418186854482863487268295359489944797310574509780732105768220433441253674973532416107158077805621648777441950,
  -501940249941205927467518420032256786740481295769119550164399907263071846877595386214428337757938085500868476354119713135015520990,
  -478437518077702806189413641449213604851747766319079501444777000486847058975722422379256419125153293704464313203886228018118087830,
  -454586892322358937105127163382137804861411187111073244665060408592342908289550778857963813738013079895481702476172867644884163430,
  -430405715560438076979677788816323310792323485840274922271939575643124981358591684700913002516930731941269723145904704753884919440,
  -405911571036037265735531296422664110746424616209752442746939947738899958129807574050279932296711286679842755297870556350475472810,
  -381122269566500424014104595111990886980816908328810242880489938398146141401223403927692143629622225100545834784788104283618982790,
  -356055836591353296387273471132088446532068991016261040731346271899296041329107313353125325786149992707621038162454754467548388020,
  -330730499065177001126227977051330288063443352030185637750833901623960269931771442175193184011877418357323080631443180582822333810,
  -305164672203950936831636753859557887530617296468215785835813301270529019884927360246443928067709465523474672828618669077145942350,
  -279376946094502353302434022201020179644958977875369444641942410900030515097671299257960700892533203573534464856628760101829143850,
  -253386072176799441747908786910341460317379191813847695971560264810904310784569652667197353291217130208716828968524589897739987790,
  -227210949608917265793336705549179711544110598268306118975282990757068014001333421231814470090468052854270708998508814285897485200,
  -200870611524591172724340639257568795537110880644862797222146081205794729464034894786372917755752691463323270440922845420153017780,
  -174384211193350432226684701487983206846962219900686094672803777867404811840737025634095879842336030764994876118849735647209281950,
  -147771008093295690869397991867167667300646122045625672746316779595365275662864469158712951343644816432980341595671515477767223370,
  -121050353906647353361256547443584396980466219084583699315776554472479450714674363533641151049347722187029942490893715207111198700,
  -94241678448248160088773100600297648305825019743681171958838135195688061264713148524777884224868608015715437458034580602867368002,
  -67364475537251983856455855315487564699625003379052253469501091895973549424440667996068850203736652212975195057208067076774787171,
  -40438288822272181703401669988998764343715853001600366210739137765112394253406049701705158166720089708632866839562287146185566102,
  -13482697570296680167366406683305760391910915415526238716801092241786858848951032599466375166039463289026792012504033904421512685,
  13482697570296680167366406683305760391910915415526238716801092241786858848951032599466375166039463289026792012504033904421512685,
  40438288822272181703401669988998764343715853001600366210739137765112394253406049701705158166720089708632866839562287146185566102,
  67364475537251983856455855315487564699625003379052253469501091895973549424440667996068850203736652212975195057208067076774787171,
  94241678448248160088773100600297648305825019743681171958838135195688061264713148524777884224868608015715437458034580602867368002,
  121050353906647353361256547443584396980466219084583699315776554472479450714674363533641151049347722187029942490893715207111198700,
  147771008093295690869397991867167667300646122045625672746316779595365275662864469158712951343644816432980341595671515477767223370,
  174384211193350432226684701487983206846962219900686094672803777867404811840737025634095879842336030764994876118849735647209281950,
  200870611524591172724340639257568795537110880644862797222146081205794729464034894786372917755752691463323270440922845420153017780,
  227210949608917265793336705549179711544110598268306118975282990757068014001333421231814470090468052854270708998508814285897485200,
  253386072176799441747908786910341460317379191813847695971560264810904310784569652667197353291217130208716828968524589897739987790,
  279376946094502353302434022201020179644958977875369444641942410900030515097671299257960700892533203573534464856628760101829143850,
  305164672203950936831636753859557887530617296468215785835813301270529019884927360246443928067709465523474672828618669077145942350,
  330730499065177001126227977051330288063443352030185637750833901623960269931771442175193184011877418357323080631443180582822333810,
  356055836591353296387273471132088446532068991016261040731346271899296041329107313353125325786149992707621038162454754467548388020,
  381122269566500424014104595111990886980816908328810242880489938398146141401223403927692143629622225100545834784788104283618982790,
  405911571036037265735531296422664110746424616209752442746939947738899958129807574050279932296711286679842755297870556350475472810,
  430405715560438076979677788816323310792323485840274922271939575643124981358591684700913002516930731941269723145904704753884919440,
  454586892322358937105127163382137804861411187111073244665060408592342908289550778857963813738013079895481702476172867644884163430,
  478437518077702806189413641449213604851747766319079501444777000486847058975722422379256419125153293704464313203886228018118087830,
  501940249941205927467518420032256786740481295769119550164399907263071846877595386214428337757938085500868476354119713135015520990,
  525077997997248654317418186854482863487268295359489944797310574509780732105768220433441253674973532416107158077805621648777441950,
  547833937726720884206037261412019239794640837450989214802499752427022764147080859516419632881114909284122847590298404084420013850,
  570191522240906057897708946385353963553487702975791237744101245616017958581934363269391308753281996653648678230823421182036579110,
  592134494313488034675636068530766002266648762391078509430336005102558339602226064818249649852369879051280999897026903897089859930,
  613646898201931983265707341720449094788988766128758089198061191166368776891784895524711152896434561656021177683443492303222349260,
  634713091249643629539801362092539001594082163782814695855268578409938638280519131787105541375941259742306645727898367321463518080,
  655317755260470668279437827299631859533282415228342331363984145956626651605803251362611192588976630540163848764423188730666887080,
  675445907637275766600459247679455864725802122572486142430815643823330609293883338396982678706000328723421650713547232343783756500,
  695082912276482248048072674447815044485658387172986932764402525034244736232470690657144441216907034413949934349883619249671054830,
  714214490210671134580845447952558308808674404607162893420234158131920974090936814838689001281151372635118078546663105990237532750,
  732826729991491624694050101086726706582096430406484981738883824666517029654779969028127268916990298753504835085269827986439873820,
  750906097805336188480191913952667594290822098207865250503461541411259458731039523411592778868829001504894353668376742701716343310,
  768439447314426159468611943973866243722089877387908764721748870661759262158302931477348592551578840748596793373836725622434606580,
  785414029216153905539552671049789954588257971042236343788898722852348237716205559223049975701761720247887335671179001101376664790,
  801817500513733294887070635824527453648276985880210183971523276927091242926645542869628356019837219113182529353699078701992741840,
  817637933491421201158583444175863238722702104827160823945453551083385041823325370053995688097484639822573436280417542341238411560,
  832863824387789237197482170743984823344460797963185969790393577841799036223769937506023274286396366119804140932564789679833573950,
  847484101760746891766621546718834698128079992361078217984401896868863744415230352319299924404544263970701782029191742908773195950,
  861488134538245060138734468050120793482216401589448880982253076941748554063748230968474758118374247540815360711503956053603338220,
  874865739748823191304636382694628355067724670407537579218718439423832174787547881941396750907687873772046062161293168619646335320,
  887607189926405018600034845196656526331395470568601601055518784628662002645144978223466598082422315122344745629299696225869994890,
  899703220183999116719174615013685011086639376513330560655110694691004644026530076595861330477187416486354402289812927430566728940,
  911145034951225062587853101612574218935509657607974734051351818728375009192669925529574102107013320127590341123423881445214490890,
  921924314370870747982525999431621180586882930132814745307442606667719877226416983181591775058311055526348228562134626540959500100,
  932033220350004786651461248847201818011157034897529058174019435347868819264063505902250428257398401954997398218391529635811455950,
  941464402261546503041223307418586139784967473046994993740454332730371803455989125081777355769195813682852373316084518817496241970,
  950211002292689320048285578225591259488800897795610395101550347234924818850505993421751605687981146536120972752409887712361830920,
  958266660437299315176301521720407406394704862790409111523017749048702141503271720369208959674846531306849458558629778468221486880,
  965625519130637473599285685388940419071736515483277206853220887568192736140260692837493874177300733577877581922312001993185927330,
  972282227527131834904968387205324517587988232198338207867322798554541679646086540691662387993419155671138064445688487031768524350,
  978231945427152230983817490213695376764805244157820016068284330103504496370195053399712356803731745620967844479415877107045167080,
  983470346871665446824057705938605806600129018455641843473102320556456985041962756044662264004395335737437748663791762113260364110,
  987993623459729608917040743999438793184357984739714974153500955128952151239309865770989133389872668249462456811667755508892816620,
  991798487559576946169527633834632569742524127125729222080699389013778717828080061720143507536733066783265932458305850876683206800,
  994882176027369448505880382509884629715982352458401438261447174661845332829126810598323719231693659836114260644837801148539972980,
  997242457212908977420969967503947183867390122313428052368705046696980042546291708735054205753308989717080654241484450975575250690,
  998877659387170204628350505433067008621293857334403634933373573213687260602886605885763083224093641316466053437806774876786163320,
  999786957022372017562160699188125031462473076031030640249078917358914983993732689854997443436286272990387873129018974907821839970]

/-- `case 116` (Util/Gauss_Legendre_Nodes_and_Weights.hpp:32884-33408), `weights`. -/
def weights116 : List Nat := [
  546717664471358041045285788559064388094577795618943426325377119460637144745116789453000000000000000000000000000000000000000000,
  1272268851255265908453490771670802885769240635260373130490900758917491781653832678440000000000000000000000000000000000000000000,
  1997970045876301566588395369186374021748774409802150596715133365868274203754214871960000000000000000000000000000000000000000000,
  2722311832648645773881836769430503324798340119611963881238441336709568003671069514300000000000000000000000000000000000000000000,
  3444692862025885308436505087035816000629074726301931146285351497565331363625608527400000000000000000000000000000000000000000000,
  4164574719190100871085039303433860266995994208896340571188581183680446782299989935600000000000000000000000000000000000000000000,
  4881430460602254431942099115221063970827237014380868819771813746329370153998098431300000000000000000000000000000000000000000000,
  5594737642483374264354906052157476081572896953036385813800951270720448917185733391500000000000000000000000000000000000000000000,
  6303977109413425275765274713911719521902307405068104597498534656486593806714127308500000000000000000000000000000000000000000000,
  7008632923833711370973793926664040320465615598006619797655334633606458730166666887500000000000000000000000000000000000000000000,
  7708192589838813360027522343012972701948933399200980101488161329012373481704599509900000000000000000000000000000000000000000000,
  8402147367306818271177069080036345715839475501051364120358729190810387401149183423080000000000000000000000000000000000000000000,
  9089992616711899017391234810696047219030943349166098656678552260070445545496893141110000000000000000000000000000000000000000000,
  9771228154359467120060634397730006772722108759875720990573988301765333520908689705870000000000000000000000000000000000000000000,
  10445358610247745748043537860851773388474993347229173949023952267087697200625011350241000000000000000000000000000000000000000000,
  11111893785186896404418400348680656991613523498428217496336858841841113279852923865402000000000000000000000000000000000000000000,
  11770349005534639609959880225370919296072543626916966034238968746058313904807109964737000000000000000000000000000000000000000000,
  12420245474636851551011506060991030476709328305860933856168832286345425142500996110363100000000000000000000000000000000000000000,
  13061110620391368285292657567394705004023175919016575045002031337969612056119214563370900000000000000000000000000000000000000000,
  13692478438511739321198753439804414297634095138257380152961888672517140980568520940461690000000000000000000000000000000000000000,
  14313889831148515133547692751838133210001910967931200944289782465942714279175364862597260000000000000000000000000000000000000000,
  14924892940569498920160855484758907306525132466460603188097223973207157465800984976741049000000000000000000000000000000000000000,
  15525043477625862433812782278021076705818296715971739317314224574933155820653512627769396000000000000000000000000000000000000000,
  16113905044747042676296052723211312725783187919063863705718477568061982862799583008314055900000000000000000000000000000000000000,
  16691049453218353232762806660097037449595281375122792496068019447258026639376502794426734000000000000000000000000000000000000000,
  17256057034503563929608790605131325075732858305099503146598556487740991180925932865013814070000000000000000000000000000000000000,
  17808516945381555032979077494202047046288082851923890989094373904202076010469734516473360852000000000000000000000000000000000000,
  18348027466672212942308874200723498963849770954585056317260044726680857383899182113651267708000000000000000000000000000000000000,
  18874196295332383811984179979096654001273448507290132514484938430514600680032118253598230533600000000000000000000000000000000000,
  19386640829708158759407124143205129218999151786835674022958935748324835050737484542658109852290000000000000000000000000000000000,
  19884988447735157561124220294866521432552665907977825742958155109036335945721263357232201609628000000000000000000000000000000000,
  20368876777883883086760565755287020881132934480240907585866011777559414369750248060807067849031600000000000000000000000000000000,
  20837953962652681578065898725949453501979354555329301973071803375528502472140882984366734156312300000000000000000000000000000000,
  21291878914416391236664583364217069559496444036031267131111739888857100298144609298117580766816050000000000000000000000000000000,
  21730321563444409156329053409733184082026513820376296852838583414452945149969388466458580390272001000000000000000000000000000000,
  22152963097907663110028916597807576438169312624342994660870875225165727526501794447578504174258296300000000000000000000000000000,
  22559496195699844297610830965877800377191811253041844269328504192513704899449323655959672156845121380000000000000000000000000000,
  22949625247904241204527338212764561316863646475735756606604894057879525801430608957377194306438992879000000000000000000000000000,
  23323066573743612636795904212706702218521271399730668926872127583332273826262720594180206984604996338400000000000000000000000000,
  23679548626856747921595032573615296323646392541177086064103710713137343885226801759347851653172509057130000000000000000000000000,
  24018812192751681455942918106599573960093843812068980463892715699094456591200039550285364014254446840792000000000000000000000000,
  24340610577291953889786190008790722167087057003347088287829508599809174103659634287525434106795632533113500000000000000000000000,
  24644709786078839443255362267471141158420467786445557524750326443012784676970488454073619392337858444860796000000000000000000000,
  24930888694599084053195994477238561486292743012024005781176841979855210702138519825579412104105786935974826200000000000000000000,
  25198939209014417847311499047248930472166721156142774284601943497995189618518082702558353910891168416504229010000000000000000000,
  25448666417475913290365475436368474896515120234983456224396096673815984235150917646036881140064594767566161550000000000000000000,
  25679888731853152519201567986324634861441747183612847947315797697030425949227084674374366665716829409749660153400000000000000000,
  25892438019775139041797402382195031835932708825350456614843556261295470881714743043300952501059138873533619441475000000000000000,
  26086159726886935177702420433931609058505516081565276392630426627007692538115693749656116257601494474306658738681400000000000000,
  26260912989233122334001504490367496525930091668254542028439091482412852343175942585031811339041946266473399924936150000000000000,
  26416570735686361339235143543605094089007980930680307667767681635136406564852350441906931450064450027736512218141157700000000000,
  26553019780346569430159863416975257517242531855838734430105987019738833603295859875566379013130000935535291917256950810000000000,
  26670160904843523879629564245409402419634334802597004819739358761146063747088524208621689363318497842032038722690496769000000000,
  26767908930483044396204538548706510716667401796755631564713781908607908212642681379901662894955937283925643597392823369080000000,
  26846192780184292002792230056201120910996080458475321242281094348616569904512394267678507909818911400470630146010607086542000000,
  26904955530163145761244470278964940583607705339592366501728438562015065628844838556536091318369632496640199071608807368325130000,
  26944154451324075069270377207974025794699397385356966781129701821808564046789410325851747527587926403682347164472380087185607000,
  26963761040330408905425074600677571063437902011653182803344285514449611702087151372378169485826455731787554213057645183501307610,
  26963761040330408905425074600677571063437902011653182803344285514449611702087151372378169485826455731787554213057645183501307610,
  26944154451324075069270377207974025794699397385356966781129701821808564046789410325851747527587926403682347164472380087185607000,
  26904955530163145761244470278964940583607705339592366501728438562015065628844838556536091318369632496640199071608807368325130000,
  26846192780184292002792230056201120910996080458475321242281094348616569904512394267678507909818911400470630146010607086542000000,
  26767908930483044396204538548706510716667401796755631564713781908607908212642681379901662894955937283925643597392823369080000000,
  26670160904843523879629564245409402419634334802597004819739358761146063747088524208621689363318497842032038722690496769000000000,
  26553019780346569430159863416975257517242531855838734430105987019738833603295859875566379013130000935535291917256950810000000000,
  26416570735686361339235143543605094089007980930680307667767681635136406564852350441906931450064450027736512218141157700000000000,
  26260912989233122334001504490367496525930091668254542028439091482412852343175942585031811339041946266473399924936150000000000000,
  26086159726886935177702420433931609058505516081565276392630426627007692538115693749656116257601494474306658738681400000000000000,
  25892438019775139041797402382195031835932708825350456614843556261295470881714743043300952501059138873533619441475000000000000000,
  25679888731853152519201567986324634861441747183612847947315797697030425949227084674374366665716829409749660153400000000000000000,
  25448666417475913290365475436368474896515120234983456224396096673815984235150917646036881140064594767566161550000000000000000000,
  25198939209014417847311499047248930472166721156142774284601943497995189618518082702558353910891168416504229010000000000000000000,
  24930888694599084053195994477238561486292743012024005781176841979855210702138519825579412104105786935974826200000000000000000000,
  24644709786078839443255362267471141158420467786445557524750326443012784676970488454073619392337858444860796000000000000000000000,
  24340610577291953889786190008790722167087057003347088287829508599809174103659634287525434106795632533113500000000000000000000000,
  24018812192751681455942918106599573960093843812068980463892715699094456591200039550285364014254446840792000000000000000000000000,
  23679548626856747921595032573615296323646392541177086064103710713137343885226801759347851653172509057130000000000000000000000000,
  23323066573743612636795904212706702218521271399730668926872127583332273826262720594180206984604996338400000000000000000000000000,
  22949625247904241204527338212764561316863646475735756606604894057879525801430608957377194306438992879000000000000000000000000000,
  22559496195699844297610830965877800377191811253041844269328504192513704899449323655959672156845121380000000000000000000000000000,
  22152963097907663110028916597807576438169312624342994660870875225165727526501794447578504174258296300000000000000000000000000000,
  21730321563444409156329053409733184082026513820376296852838583414452945149969388466458580390272001000000000000000000000000000000,
  21291878914416391236664583364217069559496444036031267131111739888857100298144609298117580766816050000000000000000000000000000000,
  20837953962652681578065898725949453501979354555329301973071803375528502472140882984366734156312300000000000000000000000000000000,
  20368876777883883086760565755287020881132934480240907585866011777559414369750248060807067849031600000000000000000000000000000000,
  19884988447735157561124220294866521432552665907977825742958155109036335945721263357232201609628000000000000000000000000000000000,
  19386640829708158759407124143205129218999151786835674022958935748324835050737484542658109852290000000000000000000000000000000000,
  18874196295332383811984179979096654001273448507290132514484938430514600680032118253598230533600000000000000000000000000000000000,
  18348027466672212942308874200723498963849770954585056317260044726680857383899182113651267708000000000000000000000000000000000000,
  17808516945381555032979077494202047046288082851923890989094373904202076010469734516473360852000000000000000000000000000000000000,
  17256057034503563929608790605131325075732858305099503146598556487740991180925932865013814070000000000000000000000000000000000000,
  16691049453218353232762806660097037449595281375122792496068019447258026639376502794426734000000000000000000000000000000000000000,
  16113905044747042676296052723211312725783187919063863705718477568061982862799583008314055900000000000000000000000000000000000000,
  15525043477625862433812782278021076705818296715971739317314224574933155820653512627769396000000000000000000000000000000000000000,
  14924892940569498920160855484758907306525132466460603188097223973207157465800984976741049000000000000000000000000000000000000000,
  14313889831148515133547692751838133210001910967931200944289782465942714279175364862597260000000000000000000000000000000000000000,
  13692478438511739321198753439804414297634095138257380152961888672517140980568520940461690000000000000000000000000000000000000000,
  13061110620391368285292657567394705004023175919016575045002031337969612056119214563370900000000000000000000000000000000000000000,
  12420245474636851551011506060991030476709328305860933856168832286345425142500996110363100000000000000000000000000000000000000000,
  11770349005534639609959880225370919296072543626916966034238968746058313904807109964737000000000000000000000000000000000000000000,
  11111893785186896404418400348680656991613523498428217496336858841841113279852923865402000000000000000000000000000000000000000000,
  10445358610247745748043537860851773388474993347229173949023952267087697200625011350241000000000000000000000000000000000000000000,
  9771228154359467120060634397730006772722108759875720990573988301765333520908689705870000000000000000000000000000000000000000000,
  9089992616711899017391234810696047219030943349166098656678552260070445545496893141110000000000000000000000000000000000000000000,
  8402147367306818271177069080036345715839475501051364120358729190810387401149183423080000000000000000000000000000000000000000000,
  7708192589838813360027522343012972701948933399200980101488161329012373481704599509900000000000000000000000000000000000000000000,
  7008632923833711370973793926664040320465615598006619797655334633606458730166666887500000000000000000000000000000000000000000000,
  6303977109413425275765274713911719521902307405068104597498534656486593806714127308500000000000000000000000000000000000000000000,
  5594737642483374264354906052157476081572896953036385813800951270720448917185733391500000000000000000000000000000000000000000000,
  4881430460602254431942099115221063970827237014380868819771813746329370153998098431300000000000000000000000000000000000000000000,
  4164574719190100871085039303433860266995994208896340571188581183680446782299989935600000000000000000000000000000000000000000000,
  3444692862025885308436505087035816000629074726301931146285351497565331363625608527400000000000000000000000000000000000000000000,
  2722311832648645773881836769430503324798340119611963881238441336709568003671069514300000000000000000000000000000000000000000000,
  1997970045876301566588395369186374021748774409802150596715133365868274203754214871960000000000000000000000000000000000000000000,
  1272268851255265908453490771670802885769240635260373130490900758917491781653832678440000000000000000000000000000000000000000000,
  546717664471358041045285788559064388094577795618943426325377119460637144745116789453000000000000000000000000000000000000000000]

/-- `case 117` (Util/Gauss_Legendre_Nodes_and_Weights.hpp:33410-33936), `nodes`. -/
def nodes117 : List Int := [
  -999790567707075311751056858262518097774980115085357019336483673668797097849714005154689694980044774371389116011160883886014972060,
  -998896678151389281520390609403824245430949564664799351211106400509964905670752668349678866615240752077852784247871944935445675100,
  -997289172970138357862874019605970655360977625526556873825750401052906394995360003911821611785840764872868137389557715699231813870,
  -994968843903346133716137577142431683270005012889693752451859405015640095527265599664122710033812948521467498912723574847660191340,
  -991937305789620820594710833063132473497303968926879868721247031408388785622296551567685274446104642919445914063581461593485139480,
  -988196715179464724313219789816762050088236721345802127949478100706902966901995533883196730014469349608566588543959753121732859940,
  -983749742443374506761399460164158201575106109337850476129715479745568588418396267492090643412957051185003404799030888445015161440,
  -978599564951229139312528091391612821617173996875610275248559441194896571396144447172046494734494708155007772569465129411230731100,
  -972749863495396223134534191772467453768583650615601038931697653738012067051176561589738448906899228556675781575528432588566437250,
  -966204819225296473218726654464533647287918775795116481155892400806583015839277521404491058437033302590636158175565317425434711240,
  -958969110489651359232287639994028130352481408659293250351494104840979400974862573634842459798462648517381389447327257383090207070,
  -951047909418446729934142918906046889015785746423347606416471391220973844675873986374880634367171218183020035057472337867649501250,
  -942446878190459790867996414124508114187941000316222880790249856783355134870400950583367242323312398085960371166418458631802327390,
  -933172164967653117041599869656196017933740589176871075544170545555069857056993084869186278565208208747844069282234149030483385220,
  -923230399490432463868130531769136018014319869040878458311133029622816445645676060189943822457331244329446676240092224853952797730,
  -912628688332890219828681639282062216954849401117032829383483762559959635025189786336721816804200393750644353367483956364960540950,
  -901374609819481035984014173193644724603186339270110761237496910070226576058741713069368354500801020980449023227984977254971856850,
  -889476208605769627513879316220204820205944590319730162014865119948302016676427903533465760876457672841869311814748983548830492140,
  -876941989926592066203770320493714174590634509928837738675905516394542825528327642445859997857430516040250949296087275907642216780,
  -863780913515444722116972904847457758732633998067746503881987030207760056798944712864159220546397838394115936488685407288075357780,
  -850002387199275217780720107378437929511378146873327375771469868585057368812737071708455885276495324862391468747067604458406625680,
  -835616260173151051088652261071991670119276586866952573442264309878470126771127118815990181427491685124209915930883956824351803290,
  -820632815959550010592818350849459877703645772302958737205360422735474819453992033182731322599945552013181626218332842800628622880,
  -805062765057265321711960813746557379116105285334361431336259078418511120731760543122006761412779311169884959018738739422610446030,
  -788917237285154494876045426089742012292803009881418495411904453877637007436201449667048628437492483981321833924218952907464565770,
  -772207773826187770544845547994819303117146784120838682943578100111224329072904053999756074988455845476622680111007564664020067070,
  -754946318977471867562335814691609511790039773882652306711584536605000051360555457916022382863319449449907369242298820457377782440,
  -737145211612138528916040769480324247465014139838581422534063385159141305741642490613351152297640148673621897899522060889261163360,
  -718817176359195706549686114374145183955617207604642647871129337850393927489972504257239078212989462419313784473439627842036645120,
  -699975314507642431103927141720554893985336856477782884516285956601513196972677410354545551020605693569940408654213006490554496090,
  -680633094641346603209879842830300121936886787704598465721603320057400684304742549163367985024529312497259021059173335678438521240,
  -660804343011378151683157699190449913044022759000456646694620506945091992664827688498888616689033290825687922352830435027808460740,
  -640503233652678203406155102454496769775822558264493615090756730221944485904918468028521538892527952588242201975273721651808705910,
  -619744278252128037456333131500550903211356509991760612261625556310883316774430726978532429045363015299721592366962286155770036840,
  -598542315775259568895481101261389433422727940638881739912096371289182385643041093865713433651291837525478743787575441283039091080,
  -576912501859021830292626887195443748531648934277458848654683857757959413364866974876698076986850886161109383826655542758294912990,
  -554870297978185289721720897373999581186263614184235606333412427048802799335981279675987259595531974939856516744462658512914440930,
  -532431460393127757910016913393313736516641393937706209213823861259498375178816787480718409544548538228284918568051956639144700240,
  -509612028886901989029394813059013180162348051212138330779299440383399926373470380475045138083187485246346242747534288221582483520,
  -486428315299635764833410510758731217196579478367761242555240126239656089305747778774098854703819503271267453719033325241970780900,
  -462896891868460167900047331217336177277985910296066660826647784830657834902605359701287120088319539942999220650808268713188827320,
  -439034579381300796757206485911981590203430039410049225482821898883573932776492987227743809186422082012976879475562225562940341970,
  -414858435152999756928945189853739251528093015029828839310051155119197401554507438741880473864039378798208162782738547502752300480,
  -390385740832363284269506996628768194484785684813466849067769558182462514197339893897927255012532392353339157004299350555653349200,
  -365633990048850730987709926789064715115398027014161319578708628286204068093777490295194548997317750661228918686619821894703173980,
  -340620875907735285167682876557093392809383859545580359035502181339346189619267618302835670205683006967967857712050753470041168030,
  -315364278342675120210724896039188619359761610737562148315973366811653215656900095680545910347312056151002972993374626586665575840,
  -289882251334735604621199049803192794002341666496140074837091963570264674201693075510194461857435006185647288591655414997292912500,
  -264193010006998672524245160517216643664034037600212734021017823807732139602587044691545813318616364287395808855651304722131763000,
  -238314917603984393334720159451882740992321121924092430812154920462232849877653424407872632310810178973315172377180189319025742650,
  -212266472365192121783593750842556677866720100027370067701721339363198266218008103230748390917434340597667491429999957663284768370,
  -186066294302144298392121992623231157522488489277453620973647673100429144681113512973788811955884279708601744322475516933841659620,
  -159733111888384951517846335380159743044235091183268355300860021319952690913156874807847874950820486722369130395216977449246246190,
  -133285748671947176091907971906791624298276234172682371257623361577265703119830198289400794999167161332900908782992068526545024050,
  -106743109819859286739425168883824144575755790362533125992338435253321708770706745799363922849052453304371313093823457548174289740,
  -80124168604307924579661092268689169756746838773049957367218857115191627426844902186955690394201382890660595580453870249252979648,
  -53447952840118102969944339070106444482264353661255637806905563298757532725632272620975307912809546666305201993082323443500899272,
  -26733531283244978018148845911688541071831198808746910142004276813534871705234418113612761924272518710316245259354189828853421469,
  0,
  26733531283244978018148845911688541071831198808746910142004276813534871705234418113612761924272518710316245259354189828853421469,
  53447952840118102969944339070106444482264353661255637806905563298757532725632272620975307912809546666305201993082323443500899272,
  80124168604307924579661092268689169756746838773049957367218857115191627426844902186955690394201382890660595580453870249252979648,
  106743109819859286739425168883824144575755790362533125992338435253321708770706745799363922849052453304371313093823457548174289740,
  133285748671947176091907971906791624298276234172682371257623361577265703119830198289400794999167161332900908782992068526545024050,
  159733111888384951517846335380159743044235091183268355300860021319952690913156874807847874950820486722369130395216977449246246190,
  186066294302144298392121992623231157522488489277453620973647673100429144681113512973788811955884279708601744322475516933841659620,
  212266472365192121783593750842556677866720100027370067701721339363198266218008103230748390917434340597667491429999957663284768370,
  238314917603984393334720159451882740992321121924092430812154920462232849877653424407872632310810178973315172377180189319025742650,
  264193010006998672524245160517216643664034037600212734021017823807732139602587044691545813318616364287395808855651304722131763000,
  289882251334735604621199049803192794002341666496140074837091963570264674201693075510194461857435006185647288591655414997292912500,
  315364278342675120210724896039188619359761610737562148315973366811653215656900095680545910347312056151002972993374626586665575840,
  340620875907735285167682876557093392809383859545580359035502181339346189619267618302835670205683006967967857712050753470041168030,
  365633990048850730987709926789064715115398027014161319578708628286204068093777490295194548997317750661228918686619821894703173980,
  390385740832363284269506996628768194484785684813466849067769558182462514197339893897927255012532392353339157004299350555653349200,
  414858435152999756928945189853739251528093015029828839310051155119197401554507438741880473864039378798208162782738547502752300480,
  439034579381300796757206485911981590203430039410049225482821898883573932776492987227743809186422082012976879475562225562940341970,
  462896891868460167900047331217336177277985910296066660826647784830657834902605359701287120088319539942999220650808268713188827320,
  486428315299635764833410510758731217196579478367761242555240126239656089305747778774098854703819503271267453719033325241970780900,
  509612028886901989029394813059013180162348051212138330779299440383399926373470380475045138083187485246346242747534288221582483520,
  532431460393127757910016913393313736516641393937706209213823861259498375178816787480718409544548538228284918568051956639144700240,
  554870297978185289721720897373999581186263614184235606333412427048802799335981279675987259595531974939856516744462658512914440930,
  576912501859021830292626887195443748531648934277458848654683857757959413364866974876698076986850886161109383826655542758294912990,
  598542315775259568895481101261389433422727940638881739912096371289182385643041093865713433651291837525478743787575441283039091080,
  619744278252128037456333131500550903211356509991760612261625556310883316774430726978532429045363015299721592366962286155770036840,
  640503233652678203406155102454496769775822558264493615090756730221944485904918468028521538892527952588242201975273721651808705910,
  660804343011378151683157699190449913044022759000456646694620506945091992664827688498888616689033290825687922352830435027808460740,
  680633094641346603209879842830300121936886787704598465721603320057400684304742549163367985024529312497259021059173335678438521240,
  699975314507642431103927141720554893985336856477782884516285956601513196972677410354545551020605693569940408654213006490554496090,
  718817176359195706549686114374145183955617207604642647871129337850393927489972504257239078212989462419313784473439627842036645120,
  737145211612138528916040769480324247465014139838581422534063385159141305741642490613351152297640148673621897899522060889261163360,
  754946318977471867562335814691609511790039773882652306711584536605000051360555457916022382863319449449907369242298820457377782440,
  772207773826187770544845547994819303117146784120838682943578100111224329072904053999756074988455845476622680111007564664020067070,
  788917237285154494876045426089742012292803009881418495411904453877637007436201449667048628437492483981321833924218952907464565770,
  805062765057265321711960813746557379116105285334361431336259078418511120731760543122006761412779311169884959018738739422610446030,
  820632815959550010592818350849459877703645772302958737205360422735474819453992033182731322599945552013181626218332842800628622880,
  835616260173151051088652261071991670119276586866952573442264309878470126771127118815990181427491685124209915930883956824351803290,
  850002387199275217780720107378437929511378146873327375771469868585057368812737071708455885276495324862391468747067604458406625680,
  863780913515444722116972904847457758732633998067746503881987030207760056798944712864159220546397838394115936488685407288075357780,
  876941989926592066203770320493714174590634509928837738675905516394542825528327642445859997857430516040250949296087275907642216780,
  889476208605769627513879316220204820205944590319730162014865119948302016676427903533465760876457672841869311814748983548830492140,
  901374609819481035984014173193644724603186339270110761237496910070226576058741713069368354500801020980449023227984977254971856850,
  912628688332890219828681639282062216954849401117032829383483762559959635025189786336721816804200393750644353367483956364960540950,
  923230399490432463868130531769136018014319869040878458311133029622816445645676060189943822457331244329446676240092224853952797730,
  933172164967653117041599869656196017933740589176871075544170545555069857056993084869186278565208208747844069282234149030483385220,
  942446878190459790867996414124508114187941000316222880790249856783355134870400950583367242323312398085960371166418458631802327390,
  951047909418446729934142918906046889015785746423347606416471391220973844675873986374880634367171218183020035057472337867649501250,
  958969110489651359232287639994028130352481408659293250351494104840979400974862573634842459798462648517381389447327257383090207070,
  966204819225296473218726654464533647287918775795116481155892400806583015839277521404491058437033302590636158175565317425434711240,
  972749863495396223134534191772467453768583650615601038931697653738012067051176561589738448906899228556675781575528432588566437250,
  978599564951229139312528091391612821617173996875610275248559441194896571396144447172046494734494708155007772569465129411230731100,
  983749742443374506761399460164158201575106109337850476129715479745568588418396267492090643412957051185003404799030888445015161440,
  988196715179464724313219789816762050088236721345802127949478100706902966901995533883196730014469349608566588543959753121732859940,
  991937305789620820594710833063132473497303968926879868721247031408388785622296551567685274446104642919445914063581461593485139480,
  994968843903346133716137577142431683270005012889693752451859405015640095527265599664122710033812948521467498912723574847660191340,
  997289172970138357862874019605970655360977625526556873825750401052906394995360003911821611785840764872868137389557715699231813870,
  998896678151389281520390609403824245430949564664799351211106400509964905670752668349678866615240752077852784247871944935445675100,
  999790567707075311751056858262518097774980115085357019336483673668797097849714005154689694980044774371389116011160883886014972060]

/-- `case 117` (Util/Gauss_Legendre_Nodes_and_Weights.hpp:33410-33936), `weights`. -/
def weights117 : List Nat := [
  537452134027389199830205890735234465725592836640212259548447762569249022345350471344000000000000000000000000000000000000000000,
  1250713426225570035006373364491090310092171164262293091886893859654110522752033457680000000000000000000000000000000000000000000,
  1964137588911519083363587426302199134608340559572463274008005339742322807708384198600000000000000000000000000000000000000000000,
  2676249566254557966925409271141110858973367317854079278363413082817030696788574838200000000000000000000000000000000000000000000,
  3386466942869921176417263123738045458669651096864161916330835151760225910184461698700000000000000000000000000000000000000000000,
  4094269123895055751342294843754947564323310391078111643481763371298799878102685054800000000000000000000000000000000000000000000,
  4799146731223052046959659292772713681943454270271415375503740186001185099154090294900000000000000000000000000000000000000000000,
  5500594737632186903419429301899262450663465289367639100734618192829662033734655365900000000000000000000000000000000000000000000,
  6198111263482283521383843682495178712512692183416563218353901202731027440819990567200000000000000000000000000000000000000000000,
  6891197495069199629060136175937147735859923381618380239627147490075345410551466773100000000000000000000000000000000000000000000,
  7579357892386306117086049998778615650755678347405670205555664139094940366615967774900000000000000000000000000000000000000000000,
  8262100485811827377034643930152123174542230187596943916973938974469017120028631027100000000000000000000000000000000000000000000,
  8938937203090404393811078146593120555687102126048469261122738360937191196860270925440000000000000000000000000000000000000000000,
  9609384206705541765217694023909115903822877786417514514065585138229661390805569825570000000000000000000000000000000000000000000,
  10272962233991835191412255613287657872198320321145931567924823210147176919348115629780000000000000000000000000000000000000000000,
  10929196936687970637741532065327572697521520605317723357047600450100234136575207388585000000000000000000000000000000000000000000,
  11577619218329843936652638411356509307272236001824188100936441845881054199083929340498000000000000000000000000000000000000000000,
  12217765568600149492053058540038066326373802862105665785199712452174437114053801486221000000000000000000000000000000000000000000,
  12849178394074758838986613704452386557341119393412664972132488711946033679644855905148300000000000000000000000000000000000000000,
  13471406344961833042861450116361436151001007951387990491795238955853798521183180976091100000000000000000000000000000000000000000,
  14084004637508873425479556588498313376475538826567519210967283673432124193746719020096780000000000000000000000000000000000000000,
  14686535371795794203010728173229032456044705826208552386360509523999641333242993855941330000000000000000000000000000000000000000,
  15278567844656903700411060486871566262201741142219529083543594178815184000887742234364584000000000000000000000000000000000000000,
  15859678857490180463418220495970036441125486331244932124937667940683200295813907600252173000000000000000000000000000000000000000,
  16429453018722804193508226353446371108498073193908503165053062332450548340668782664787863000000000000000000000000000000000000000,
  16987483040709813057313648906600517421371803302312587684902697409589609902340419334183703210000000000000000000000000000000000000,
  17533370030849217683741195159547724640020165921271200457114381169955730465502712662554854000000000000000000000000000000000000000,
  18066723776702572434688514054517978090254851204497504997147959754910855401347932106299840101000000000000000000000000000000000000,
  18587163024915260667054797429738269119518415683083879192427587425476977548581686325735204430700000000000000000000000000000000000,
  19094315753735808257120255535503659133773437895322708093545923505853508117800078119281543228000000000000000000000000000000000000,
  19587819438938525008879228620051711111129186570068365367639024313258457697979819305750484959520000000000000000000000000000000000,
  20067321312958761799013111952084798457459011900003327689316466208310652191381250696077611265466000000000000000000000000000000000,
  20532478617055107352883386014196849321879997544406151167077288969138773860044665981482525935175500000000000000000000000000000000,
  20982958846317959232840231489385181975561392795279528168549571162426115598574524621729129307706560000000000000000000000000000000,
  21418439987349104713688109646319628335729850474664375235029824238347991106422701316761290532635862000000000000000000000000000000,
  21838610748442247577437021695638221811195676063021311882262385045857369954882000155107875521466364500000000000000000000000000000,
  22243170782099820953235278125819410221673802846390342212867897575039870388896038279423309019622711380000000000000000000000000000,
  22631830899726935796119243141377711501878926470023201277000777000738627131761967475357886403367435671000000000000000000000000000,
  23004313278348929209822129455757114165813413083346638994429372986455328538947626723717995217740666651900000000000000000000000000,
  23360351659204695090345640341689519787644500948851016758314357242021515480584930221428476738694001658520000000000000000000000000,
  23699691538073799155346870012758453939318660519324046364762352980312546905406974003947022326863403478697000000000000000000000000,
  24022090347201298385539403128077203228560022389643643828251115486708850331884041509797323665185059198872500000000000000000000000,
  24327317628690197863775169977633057177498458447370184773197791139577949790263431740306521347557179534720300000000000000000000000,
  24615155199237582265098522347395369166517510321580754898879888515739358799801770001033853783035365894508863000000000000000000000,
  24885397306096650899222711712618176749549887146206616807308231970847149216232409679365401407237150561968970400000000000000000000,
  25137850774153160124707326751278379075335185429151234548539291330175298870681256724075899186294764653343250282000000000000000000,
  25372335144011130885757752673158320528733330754192514706068313448794845299103624586617653314604211633126529461600000000000000000,
  25588682800989107694698708694794763219303383910648057494334658997897041083024764195588620897233598168079782578620000000000000000,
  25786739094934754125245094060185688109120087205277665359212352814593723245445891940532076223863575018961593072083000000000000000,
  25966362450772134241206488152620147758138633316347617883527787554643654865511250976480900188339475265222471479390630000000000000,
  26127424469702654739611397154774765943017511129636870627997979532425117536097140775075596726501399339183354861116378000000000000,
  26269810020987324253171704453719264997927855928203039284554951239321399548539402348638800781024235287588157140415940800000000000,
  26393417324244719498422087886300964513622262536607876713302027491596916370223041982686031366587567359132821149928117452000000000,
  26498158022205827990427454249883961250671345548623583106868291338128202358396269020254544590233046239080510915244152002500000000,
  26583957243873759049878081212551744201423725174636244765661028433674268930014048058305871165413204794096116059404416905477000000,
  26650753658043173945673621296164578998407699166850729423537813589942209566468006645415307254320359053924597402143929988103900000,
  26698499517141177357262985399228278956358708667152760988454645736366935859916032689901689286996901807536972574046606205437313000,
  26727160691358330991610289717648220172478198792227045643445491880675404078157422308486839869083980979732456780080868473976098900,
  26736716693045391213539061058883025409759383040040512126030713967009084658166998226645692750082792553802609917536876195252203670,
  26727160691358330991610289717648220172478198792227045643445491880675404078157422308486839869083980979732456780080868473976098900,
  26698499517141177357262985399228278956358708667152760988454645736366935859916032689901689286996901807536972574046606205437313000,
  26650753658043173945673621296164578998407699166850729423537813589942209566468006645415307254320359053924597402143929988103900000,
  26583957243873759049878081212551744201423725174636244765661028433674268930014048058305871165413204794096116059404416905477000000,
  26498158022205827990427454249883961250671345548623583106868291338128202358396269020254544590233046239080510915244152002500000000,
  26393417324244719498422087886300964513622262536607876713302027491596916370223041982686031366587567359132821149928117452000000000,
  26269810020987324253171704453719264997927855928203039284554951239321399548539402348638800781024235287588157140415940800000000000,
  26127424469702654739611397154774765943017511129636870627997979532425117536097140775075596726501399339183354861116378000000000000,
  25966362450772134241206488152620147758138633316347617883527787554643654865511250976480900188339475265222471479390630000000000000,
  25786739094934754125245094060185688109120087205277665359212352814593723245445891940532076223863575018961593072083000000000000000,
  25588682800989107694698708694794763219303383910648057494334658997897041083024764195588620897233598168079782578620000000000000000,
  25372335144011130885757752673158320528733330754192514706068313448794845299103624586617653314604211633126529461600000000000000000,
  25137850774153160124707326751278379075335185429151234548539291330175298870681256724075899186294764653343250282000000000000000000,
  24885397306096650899222711712618176749549887146206616807308231970847149216232409679365401407237150561968970400000000000000000000,
  24615155199237582265098522347395369166517510321580754898879888515739358799801770001033853783035365894508863000000000000000000000,
  24327317628690197863775169977633057177498458447370184773197791139577949790263431740306521347557179534720300000000000000000000000,
  24022090347201298385539403128077203228560022389643643828251115486708850331884041509797323665185059198872500000000000000000000000,
  23699691538073799155346870012758453939318660519324046364762352980312546905406974003947022326863403478697000000000000000000000000,
  23360351659204695090345640341689519787644500948851016758314357242021515480584930221428476738694001658520000000000000000000000000,
  23004313278348929209822129455757114165813413083346638994429372986455328538947626723717995217740666651900000000000000000000000000,
  22631830899726935796119243141377711501878926470023201277000777000738627131761967475357886403367435671000000000000000000000000000,
  22243170782099820953235278125819410221673802846390342212867897575039870388896038279423309019622711380000000000000000000000000000,
  21838610748442247577437021695638221811195676063021311882262385045857369954882000155107875521466364500000000000000000000000000000,
  21418439987349104713688109646319628335729850474664375235029824238347991106422701316761290532635862000000000000000000000000000000,
  20982958846317959232840231489385181975561392795279528168549571162426115598574524621729129307706560000000000000000000000000000000,
  20532478617055107352883386014196849321879997544406151167077288969138773860044665981482525935175500000000000000000000000000000000,
  20067321312958761799013111952084798457459011900003327689316466208310652191381250696077611265466000000000000000000000000000000000,
  19587819438938525008879228620051711111129186570068365367639024313258457697979819305750484959520000000000000000000000000000000000,
  19094315753735808257120255535503659133773437895322708093545923505853508117800078119281543228000000000000000000000000000000000000,
  18587163024915260667054797429738269119518415683083879192427587425476977548581686325735204430700000000000000000000000000000000000,
  18066723776702572434688514054517978090254851204497504997147959754910855401347932106299840101000000000000000000000000000000000000,
  17533370030849217683741195159547724640020165921271200457114381169955730465502712662554854000000000000000000000000000000000000000,
  16987483040709813057313648906600517421371803302312587684902697409589609902340419334183703210000000000000000000000000000000000000,
  16429453018722804193508226353446371108498073193908503165053062332450548340668782664787863000000000000000000000000000000000000000,
  15859678857490180463418220495970036441125486331244932124937667940683200295813907600252173000000000000000000000000000000000000000,
  15278567844656903700411060486871566262201741142219529083543594178815184000887742234364584000000000000000000000000000000000000000,
  14686535371795794203010728173229032456044705826208552386360509523999641333242993855941330000000000000000000000000000000000000000,
  14084004637508873425479556588498313376475538826567519210967283673432124193746719020096780000000000000000000000000000000000000000,
  13471406344961833042861450116361436151001007951387990491795238955853798521183180976091100000000000000000000000000000000000000000,
  12849178394074758838986613704452386557341119393412664972132488711946033679644855905148300000000000000000000000000000000000000000,
  12217765568600149492053058540038066326373802862105665785199712452174437114053801486221000000000000000000000000000000000000000000,
  11577619218329843936652638411356509307272236001824188100936441845881054199083929340498000000000000000000000000000000000000000000,
  10929196936687970637741532065327572697521520605317723357047600450100234136575207388585000000000000000000000000000000000000000000,
  10272962233991835191412255613287657872198320321145931567924823210147176919348115629780000000000000000000000000000000000000000000,
  9609384206705541765217694023909115903822877786417514514065585138229661390805569825570000000000000000000000000000000000000000000,
  8938937203090404393811078146593120555687102126048469261122738360937191196860270925440000000000000000000000000000000000000000000,
  8262100485811827377034643930152123174542230187596943916973938974469017120028631027100000000000000000000000000000000000000000000,
  7579357892386306117086049998778615650755678347405670205555664139094940366615967774900000000000000000000000000000000000000000000,
  6891197495069199629060136175937147735859923381618380239627147490075345410551466773100000000000000000000000000000000000000000000,
  6198111263482283521383843682495178712512692183416563218353901202731027440819990567200000000000000000000000000000000000000000000,
  5500594737632186903419429301899262450663465289367639100734618192829662033734655365900000000000000000000000000000000000000000000,
  4799146731223052046959659292772713681943454270271415375503740186001185099154090294900000000000000000000000000000000000000000000,
  4094269123895055751342294843754947564323310391078111643481763371298799878102685054800000000000000000000000000000000000000000000,
  3386466942869921176417263123738045458669651096864161916330835151760225910184461698700000000000000000000000000000000000000000000,
  2676249566254557966925409271141110858973367317854079278363413082817030696788574838200000000000000000000000000000000000000000000,
  1964137588911519083363587426302199134608340559572463274008005339742322807708384198600000000000000000000000000000000000000000000,
  1250713426225570035006373364491090310092171164262293091886893859654110522752033457680000000000000000000000000000000000000000000,
  537452134027389199830205890735234465725592836640212259548447762569249022345350471344000000000000000000000000000000000000000000]

/-- `case 118` (Util/Gauss_Legendre_Nodes_and_Weights.hpp:33938-34470), `nodes`. -/
def nodes118 : List Int := [
  -999794087373190309449657985310333165880593366635682000167039472571141714141571377532866675047602171068008604756084198790654342910,
  -998915217582316508513151361341575215192462482894000928083632794911275878453027700618577765770107084377020901409255609465352199420,
  -997334711757721377864968897559007375576872789035807451483311415885399534196988272732753787455136736637435204932191309985836450230,
  -995053329360002590554915296203265124634788351551732330557503525865313331703486352903664060289485878158495177757662454381788130780,
  -992072630718030817336892247015761755397098259859016718639329066948290963226357220455818162828119595908736376079679633560429722180,
  -988394700410245828181809534400117336520753482868879832290920382087097444884740546986615779893691906721302957277880378499179244190,
  -984022119892233249932346066495099986817740156064053430596514471405994588671869140725789050512851902047589523272774947511256041490,
  -978957960853274041081457978231830245541250878583526443464570338958189597976165853378027807040953160512723198606059962504539513280,
  -973205781773854049939466658813501982952564522512837461940345821493211117496305632822380757955788878835674276725095905057787598210,
  -966769624997714945204330671278115562558286018279826535244881498795903824164836010849667822886234486518059488778770405246640999000,
  -959654013724727556810123830187367042598574178817822040703445707581255985371500402286346154314100059901266397333429660640366168160,
  -951863948759339588119569353877119868156360230320117024575758335717474847997625501664482042608082282847148956786191164271677249890,
  -943404904961239072695251723014337809302898547814719619271963947530232565940160304387477323987510459997744603948656059707289023340,
  -934282827379723194038489374714884710845328923759842484207664576498116032975483446334698901665790401618610927498342734604764228920,
  -924504127065729801094354827819503489754782528489516961390552372867533612847241932508303716066438901764769394820270856089677792290,
  -914075676560515992530555866908789836643160564622139469593045795113304754251574872471052333802920662390023914166936009225445146520,
  -903004805062242004366888905571189147113158576279537058701993594007723335468516913143513599747545731672128726082901040983485936810,
  -891299293272880433222443774340629930424622042939177429079497005236199768174991834755702037829278935943961861750858092035934766370,
  -878967367928548926406253271711737460846470009573673945168078851154897460887583671155285614198885399581835581999719507429761237940,
  -866017696016818101907701779437960693388892150058498712331246976230075435918038673435596508894920397498373889666235264825270262880,
  -852459378684889539889222129355191305017868316316708215471140239830621722738724743631296765691925926272335383675007544349543111670,
  -838301944842824042216694991025088611443651402783740899524438142821946786307071799444107058982859103998180668078827826592686215690,
  -823555344466253646644713494620045266421311823017304813716057082236382292930721481791471436497299216087639382135054487198956173970,
  -808229941603245069095606651273614107082020709745684017933752595087327912560369314584803691649783069528280332158514716279678832830,
  -792336507090204095827741492260830845632903234182915960935412698810714119103604237703059519672308020815581740423612912373421626710,
  -775886210981923579022035855913997513145325572392939047856925315699926655728434904292715095646928895734898396649317133376433797010,
  -758890614701084076647330817950836093292902236526893850141502067969645517689711584710035990660574603578463164533633255372870285560,
  -741361662912716899947562280715435064941018305845293718825814576849685940299518863626620109695667537043386916693093479172095762760,
  -723311675129334972741188031400448539750239884954887288056200206719136327765135398505128363078221489768181368140211413665341212250,
  -704753337052627766527516525693193704782192477753397044165754818333157947222358282092593322460929901223335933726103115480320161190,
  -685699691657802790505749178248374812348936775386627866300921059106296529149788265028048355895245291311381517085283811145578784960,
  -666164130026837725355250700067091733243494273950882347412148221202402571490644379666730300491117105875965899281057135466988893540,
  -646160381937084275344788321614417500574674423862427661549004193368547663876542792146973626053053389307400086780863756965586634120,
  -625702506211837121570433287835991583711592177411745529003844165017119648893433462857638785294572882764708340458898314364988985430,
  -604804880839648915622298537228504292516886975763631130453014330184418633123486354877213158628257687694037336009209388151424385090,
  -583482192869334971381457175599508137358251191742957313662765320490145868699841317828304088989910259489717712642373338742864341610,
  -561749428087769099899939563751798600699524533987853607261557639421192667749703760366937586190381201681197215557562414377144663450,
  -539621860487724792168164989300108270028603182350610779728375004330504089334999589765782526868975575015456743530278375770062987420,
  -517115041533163589844099179769515039099036480964019316914483931496796790297743102795235438270162856461109230727511881628257022240,
  -494244789229514898100664608221666382650688483352619598344191116955826380455852010242241914818499538707600375443741646796387499230,
  -471027177006628592630617996932626409731124718994906384001697370262526319534917065165268332992730114750860678268659846675633387370,
  -447478522422213461817314630127149138560325077586432915063010822513280178140176626842758675268799756100479030351751101268786285780,
  -423615375693700715215838484874899916006189906026724312333617430541341876357343428586380382821844457017544827427056320933688722800,
  -399454508066592394024802215933621746431376481602473646272442148252903389267285553568817946379848332812602964374564367776725740870,
  -375012900027469454815202506870826116825344735239096881527223924936425341233550626076056389365163620713536852892150896733026665030,
  -350307729369943484688113197911205871243950354436918299990836232458863396468138415004140051945409797496027005232730170073342885800,
  -325356359121939368301683877493774402725723708541813173833022747437701070797923458323325109268575577487583098137122634055382246350,
  -300176325342793692783422550736233991683273352696275574541361640989503494211544366572045924278769018541774640990852646001078275140,
  -274785324798745177370870798171648378271208762022065926829300005101870674307275819541798604658114676884486502103257431830406685110,
  -249201202525478886733259602223662284831682757722226602594818214515871640764845098631013409704744670213015132909531117539862028290,
  -223441939286465370506989908345534285439747885174542980249940346839735236797791864857801189269153340189560782450231494625406844220,
  -197525638935909111036594938262719510989441520057050588889118124152634906542139964947097379401280565943869700579891001017177903940,
  -171470515695187705330880129528402873077965746381255471495176272081304927063719115928648165292764800008745078474592493458624425800,
  -145294881351724008821547819363056618657489442603250201157017366054249746519352952134078785308491320880059726361482463983219569340,
  -119017132389287985009844350497016485563803316714350990405325107029116682178029719263002378058243620803034904776995403601983028100,
  -92655737058773198263313458587634905164258678766493697347312346542945258925917135066089242868303963891603499155925693405180509380,
  -66229222398534723065316353634320590912811245168667393059666485225376680577990712751552327447725883368153598296195080827118043630,
  -39756161213410692565461556029260192346809599751305619464268961181984882219811358316019828180470184246596142571385845361742090379,
  -13255159021578747448682156354746470459166495189881997042107634941377795848028720243176192913214995882080712434724172663108213395,
  13255159021578747448682156354746470459166495189881997042107634941377795848028720243176192913214995882080712434724172663108213395,
  39756161213410692565461556029260192346809599751305619464268961181984882219811358316019828180470184246596142571385845361742090379,
  66229222398534723065316353634320590912811245168667393059666485225376680577990712751552327447725883368153598296195080827118043630,
  92655737058773198263313458587634905164258678766493697347312346542945258925917135066089242868303963891603499155925693405180509380,
  119017132389287985009844350497016485563803316714350990405325107029116682178029719263002378058243620803034904776995403601983028100,
  145294881351724008821547819363056618657489442603250201157017366054249746519352952134078785308491320880059726361482463983219569340,
  171470515695187705330880129528402873077965746381255471495176272081304927063719115928648165292764800008745078474592493458624425800,
  197525638935909111036594938262719510989441520057050588889118124152634906542139964947097379401280565943869700579891001017177903940,
  223441939286465370506989908345534285439747885174542980249940346839735236797791864857801189269153340189560782450231494625406844220,
  249201202525478886733259602223662284831682757722226602594818214515871640764845098631013409704744670213015132909531117539862028290,
  274785324798745177370870798171648378271208762022065926829300005101870674307275819541798604658114676884486502103257431830406685110,
  300176325342793692783422550736233991683273352696275574541361640989503494211544366572045924278769018541774640990852646001078275140,
  325356359121939368301683877493774402725723708541813173833022747437701070797923458323325109268575577487583098137122634055382246350,
  350307729369943484688113197911205871243950354436918299990836232458863396468138415004140051945409797496027005232730170073342885800,
  375012900027469454815202506870826116825344735239096881527223924936425341233550626076056389365163620713536852892150896733026665030,
  399454508066592394024802215933621746431376481602473646272442148252903389267285553568817946379848332812602964374564367776725740870,
  423615375693700715215838484874899916006189906026724312333617430541341876357343428586380382821844457017544827427056320933688722800,
  447478522422213461817314630127149138560325077586432915063010822513280178140176626842758675268799756100479030351751101268786285780,
  471027177006628592630617996932626409731124718994906384001697370262526319534917065165268332992730114750860678268659846675633387370,
  494244789229514898100664608221666382650688483352619598344191116955826380455852010242241914818499538707600375443741646796387499230,
  517115041533163589844099179769515039099036480964019316914483931496796790297743102795235438270162856461109230727511881628257022240,
  539621860487724792168164989300108270028603182350610779728375004330504089334999589765782526868975575015456743530278375770062987420,
  561749428087769099899939563751798600699524533987853607261557639421192667749703760366937586190381201681197215557562414377144663450,
  583482192869334971381457175599508137358251191742957313662765320490145868699841317828304088989910259489717712642373338742864341610,
  604804880839648915622298537228504292516886975763631130453014330184418633123486354877213158628257687694037336009209388151424385090,
  625702506211837121570433287835991583711592177411745529003844165017119648893433462857638785294572882764708340458898314364988985430,
  646160381937084275344788321614417500574674423862427661549004193368547663876542792146973626053053389307400086780863756965586634120,
  666164130026837725355250700067091733243494273950882347412148221202402571490644379666730300491117105875965899281057135466988893540,
  685699691657802790505749178248374812348936775386627866300921059106296529149788265028048355895245291311381517085283811145578784960,
  704753337052627766527516525693193704782192477753397044165754818333157947222358282092593322460929901223335933726103115480320161190,
  723311675129334972741188031400448539750239884954887288056200206719136327765135398505128363078221489768181368140211413665341212250,
  741361662912716899947562280715435064941018305845293718825814576849685940299518863626620109695667537043386916693093479172095762760,
  758890614701084076647330817950836093292902236526893850141502067969645517689711584710035990660574603578463164533633255372870285560,
  775886210981923579022035855913997513145325572392939047856925315699926655728434904292715095646928895734898396649317133376433797010,
  792336507090204095827741492260830845632903234182915960935412698810714119103604237703059519672308020815581740423612912373421626710,
  808229941603245069095606651273614107082020709745684017933752595087327912560369314584803691649783069528280332158514716279678832830,
  823555344466253646644713494620045266421311823017304813716057082236382292930721481791471436497299216087639382135054487198956173970,
  838301944842824042216694991025088611443651402783740899524438142821946786307071799444107058982859103998180668078827826592686215690,
  852459378684889539889222129355191305017868316316708215471140239830621722738724743631296765691925926272335383675007544349543111670,
  866017696016818101907701779437960693388892150058498712331246976230075435918038673435596508894920397498373889666235264825270262880,
  878967367928548926406253271711737460846470009573673945168078851154897460887583671155285614198885399581835581999719507429761237940,
  891299293272880433222443774340629930424622042939177429079497005236199768174991834755702037829278935943961861750858092035934766370,
  903004805062242004366888905571189147113158576279537058701993594007723335468516913143513599747545731672128726082901040983485936810,
  914075676560515992530555866908789836643160564622139469593045795113304754251574872471052333802920662390023914166936009225445146520,
  924504127065729801094354827819503489754782528489516961390552372867533612847241932508303716066438901764769394820270856089677792290,
  934282827379723194038489374714884710845328923759842484207664576498116032975483446334698901665790401618610927498342734604764228920,
  943404904961239072695251723014337809302898547814719619271963947530232565940160304387477323987510459997744603948656059707289023340,
  951863948759339588119569353877119868156360230320117024575758335717474847997625501664482042608082282847148956786191164271677249890,
  959654013724727556810123830187367042598574178817822040703445707581255985371500402286346154314100059901266397333429660640366168160,
  966769624997714945204330671278115562558286018279826535244881498795903824164836010849667822886234486518059488778770405246640999000,
  973205781773854049939466658813501982952564522512837461940345821493211117496305632822380757955788878835674276725095905057787598210,
  978957960853274041081457978231830245541250878583526443464570338958189597976165853378027807040953160512723198606059962504539513280,
  984022119892233249932346066495099986817740156064053430596514471405994588671869140725789050512851902047589523272774947511256041490,
  988394700410245828181809534400117336520753482868879832290920382087097444884740546986615779893691906721302957277880378499179244190,
  992072630718030817336892247015761755397098259859016718639329066948290963226357220455818162828119595908736376079679633560429722180,
  995053329360002590554915296203265124634788351551732330557503525865313331703486352903664060289485878158495177757662454381788130780,
  997334711757721377864968897559007375576872789035807451483311415885399534196988272732753787455136736637435204932191309985836450230,
  998915217582316508513151361341575215192462482894000928083632794911275878453027700618577765770107084377020901409255609465352199420,
  999794087373190309449657985310333165880593366635682000167039472571141714141571377532866675047602171068008604756084198790654342910]

/-- `case 118` (Util/Gauss_Legendre_Nodes_and_Weights.hpp:33938-34470), `weights`. -/
def weights118 : List Nat := [
  528420159489470446089370633795711441290254832919374334874277768888571319218455738580000000000000000000000000000000000000000000,
  1229701134732874230099567269206971893623286498417400556054413470670602660749840699300000000000000000000000000000000000000000000,
  1931157007789165690987973755463489677816161985733430753202923187648435387015654094100000000000000000000000000000000000000000000,
  2631345925735167891361424474246603569624585860982707950185571499307482280167103046700000000000000000000000000000000000000000000,
  3329703640999647493853032479253260377254634033770571161292275482689221576463183557700000000000000000000000000000000000000000000,
  4025726642760087736540569893207836872112981900804478161895939841546111499211557135000000000000000000000000000000000000000000000,
  4718922391805412932849697638032673480825208545810352629663139686269479525763959508000000000000000000000000000000000000000000000,
  5408802558265150886338804629170234382859977126178278646807534565844345193083305181600000000000000000000000000000000000000000000,
  6094881826808698245460659032520828287568422682479327099745815943758299844139442409000000000000000000000000000000000000000000000,
  6776677804736494828897189876125302581689434965130108243888688310327528233541577683600000000000000000000000000000000000000000000,
  7453711214711867703617020690852086568070874836974335500664980929727658584871492063700000000000000000000000000000000000000000000,
  8125506175034188487350067581521067441738671085447108060167207682655466248597811180200000000000000000000000000000000000000000000,
  8791590509819332796720437166752689619703298593325342880761154647410904797557056639100000000000000000000000000000000000000000000,
  9451496069530714562222793708905258804928150110925008491287996329187386690555414731230000000000000000000000000000000000000000000,
  10104759054350354564138496888372941268662430590180375379043750468022919530495749496380000000000000000000000000000000000000000000,
  10750920337158253642044349562898645283209181193774660804875789273619898987668237924940000000000000000000000000000000000000000000,
  11389525784558004801211986770662342250841963852913661836617770293077092694159417902578000000000000000000000000000000000000000000,
  12020126575091366997467381436611001285846346621812178719259503365625819328070669153168000000000000000000000000000000000000000000,
  12642279514102878743007685382100641780616035384673856714588643516098768306961980260515000000000000000000000000000000000000000000,
  13255547344868414790069436977392120432242900974062127187874722088126518998462150415742200000000000000000000000000000000000000000,
  13859499055679324308873129510926341302038975604800688773446019440348431748541853848796600000000000000000000000000000000000000000,
  14453710182615743714070411937853337687926292500069861303255978389239269199248150101072190000000000000000000000000000000000000000,
  15037763107766849520773061043521517294565554235319132897651675835802959037187806750642530000000000000000000000000000000000000000,
  15611247352670831672887194049839209619668420978529771770153669968297829724478646450119058000000000000000000000000000000000000000,
  16173759866757529682283619342695886242263376517341644641727699567120630517577448235162066600000000000000000000000000000000000000,
  16724905310584208877369088843174769274224857602404031680230871605902530140251507718581720300000000000000000000000000000000000000,
  17264296333661051092749768464390803357955466293235150208056634404128011845890789658734656480000000000000000000000000000000000000,
  17791553846668246672157337157085219530351309565187860437880093603185269982243796873868090510000000000000000000000000000000000000,
  18306307287871470994560986147453560798306877052243117006007427840655298791916930965928939165000000000000000000000000000000000000,
  18808194883547221049374860015257555549425798261279580833935745576401750648912643771156898358200000000000000000000000000000000000,
  19296863902234100381787993622372928176705270015740851220103695707565307761391092206589416529840000000000000000000000000000000000,
  19771970902630748082049883049782799245379120786151738144518919020705227427584875377429968194843000000000000000000000000000000000,
  20233181974965753842381521343640885095997978024502750244872539994830849559693590771961478587721000000000000000000000000000000000,
  20680172975669613107379892805321021298228491843771433716617219724838447012432652563294852159123600000000000000000000000000000000,
  21112629755183569773564442249259129904672473549039222240950367458030158281917540409816355820706200000000000000000000000000000000,
  21530248378745077744802980767805091320453579918957951446081181304677112524064681741214117857937079000000000000000000000000000000,
  21932735339994591612313598705366637068815106495163515625651099210325986779635958831862939616752190100000000000000000000000000000,
  22319807767253472709007036530959581137243077732108185496403533067233724425273660298725579139008850270000000000000000000000000000,
  22691193622327969866155296346962915940690852264177384450250120490684105404698229341031149041605288480000000000000000000000000000,
  23046631891699503226715283043962673282481591137272707534954516894750472280891130241491080207938539465200000000000000000000000000,
  23385872769966842456039542361769814088304733235357199884861216383141624977462869061861784223267624707240000000000000000000000000,
  23708677835411225063310803736509005521031276835051113812315081838668873200536572463915701073358043163127000000000000000000000000,
  24014820217561003313775378842967975186723474955589619869175246974049199494914240133228383764229258626283000000000000000000000000,
  24304084756638036074940191010837528260038594517738469081862910249078346482104812982558239232243735242748052000000000000000000000,
  24576268154773751372471661222910958845442604022849088193219790417714062590657478340091044210026566790335081200000000000000000000,
  24831179118888592730659517252147931152004817635367191171358265260126320146011978890230514586513976636705894120000000000000000000,
  25068638495134423696303411681150616298777753934517721719629168933908677104587234416460226498565264169888963838000000000000000000,
  25288479394805396340078944935757322568200982273934838569047405363508263831397719276796506410164028265490007826600000000000000000,
  25490547311628786949801091584638143222593178881630103973781998013983206893041043336511506422739231583335772853274000000000000000,
  25674700230353361451826215599963618521070001183467137615344390974967146005906029351270108210946595575964495963668300000000000000,
  25840808726558950130098549526499817909202857227634009354508768174298506268725583110310822374386570526179143123865410000000000000,
  25988756057617081709708772045839979639501451483961571141549066962741131933635262182659434360010026332733076463784198100000000000,
  26118438244738746535977018565582805321676284904277191867200656537908688820505885509400210573634217906223983175939471420000000000,
  26229764146051623069915676315821355608860144320524834096284590424647832712180597916568723921961011653414940473265566371000000000,
  26322655520655406856994767478889530902820594787607338089108613571604574605445525280936399196606420277094125523488114901360000000,
  26397047083610222095360745378835712841465154418817580310065029396249661053350308938685264345802936720070516088881524320920000000,
  26452886551819468489777881038281534759821353687507811872125297962770852327577593096209846209455012435463082271945738472795070000,
  26490134680774855761179438179471220095077309953414661266445343687368872432732066812859785777620122397029774841263673400183026000,
  26508765292137800500195062417401558829468159687141253326616051418038274338640153920007660609742408269388744640760914328855342340,
  26508765292137800500195062417401558829468159687141253326616051418038274338640153920007660609742408269388744640760914328855342340,
  26490134680774855761179438179471220095077309953414661266445343687368872432732066812859785777620122397029774841263673400183026000,
  26452886551819468489777881038281534759821353687507811872125297962770852327577593096209846209455012435463082271945738472795070000,
  26397047083610222095360745378835712841465154418817580310065029396249661053350308938685264345802936720070516088881524320920000000,
  26322655520655406856994767478889530902820594787607338089108613571604574605445525280936399196606420277094125523488114901360000000,
  26229764146051623069915676315821355608860144320524834096284590424647832712180597916568723921961011653414940473265566371000000000,
  26118438244738746535977018565582805321676284904277191867200656537908688820505885509400210573634217906223983175939471420000000000,
  25988756057617081709708772045839979639501451483961571141549066962741131933635262182659434360010026332733076463784198100000000000,
  25840808726558950130098549526499817909202857227634009354508768174298506268725583110310822374386570526179143123865410000000000000,
  25674700230353361451826215599963618521070001183467137615344390974967146005906029351270108210946595575964495963668300000000000000,
  25490547311628786949801091584638143222593178881630103973781998013983206893041043336511506422739231583335772853274000000000000000,
  25288479394805396340078944935757322568200982273934838569047405363508263831397719276796506410164028265490007826600000000000000000,
  25068638495134423696303411681150616298777753934517721719629168933908677104587234416460226498565264169888963838000000000000000000,
  24831179118888592730659517252147931152004817635367191171358265260126320146011978890230514586513976636705894120000000000000000000,
  24576268154773751372471661222910958845442604022849088193219790417714062590657478340091044210026566790335081200000000000000000000,
  24304084756638036074940191010837528260038594517738469081862910249078346482104812982558239232243735242748052000000000000000000000,
  24014820217561003313775378842967975186723474955589619869175246974049199494914240133228383764229258626283000000000000000000000000,
  23708677835411225063310803736509005521031276835051113812315081838668873200536572463915701073358043163127000000000000000000000000,
  23385872769966842456039542361769814088304733235357199884861216383141624977462869061861784223267624707240000000000000000000000000,
  23046631891699503226715283043962673282481591137272707534954516894750472280891130241491080207938539465200000000000000000000000000,
  22691193622327969866155296346962915940690852264177384450250120490684105404698229341031149041605288480000000000000000000000000000,
  22319807767253472709007036530959581137243077732108185496403533067233724425273660298725579139008850270000000000000000000000000000,
  21932735339994591612313598705366637068815106495163515625651099210325986779635958831862939616752190100000000000000000000000000000,
  21530248378745077744802980767805091320453579918957951446081181304677112524064681741214117857937079000000000000000000000000000000,
  21112629755183569773564442249259129904672473549039222240950367458030158281917540409816355820706200000000000000000000000000000000,
  20680172975669613107379892805321021298228491843771433716617219724838447012432652563294852159123600000000000000000000000000000000,
  20233181974965753842381521343640885095997978024502750244872539994830849559693590771961478587721000000000000000000000000000000000,
  19771970902630748082049883049782799245379120786151738144518919020705227427584875377429968194843000000000000000000000000000000000,
  19296863902234100381787993622372928176705270015740851220103695707565307761391092206589416529840000000000000000000000000000000000,
  18808194883547221049374860015257555549425798261279580833935745576401750648912643771156898358200000000000000000000000000000000000,
  18306307287871470994560986147453560798306877052243117006007427840655298791916930965928939165000000000000000000000000000000000000,
  17791553846668246672157337157085219530351309565187860437880093603185269982243796873868090510000000000000000000000000000000000000,
  17264296333661051092749768464390803357955466293235150208056634404128011845890789658734656480000000000000000000000000000000000000,
  16724905310584208877369088843174769274224857602404031680230871605902530140251507718581720300000000000000000000000000000000000000,
  16173759866757529682283619342695886242263376517341644641727699567120630517577448235162066600000000000000000000000000000000000000,
  15611247352670831672887194049839209619668420978529771770153669968297829724478646450119058000000000000000000000000000000000000000,
  15037763107766849520773061043521517294565554235319132897651675835802959037187806750642530000000000000000000000000000000000000000,
  14453710182615743714070411937853337687926292500069861303255978389239269199248150101072190000000000000000000000000000000000000000,
  13859499055679324308873129510926341302038975604800688773446019440348431748541853848796600000000000000000000000000000000000000000,
  13255547344868414790069436977392120432242900974062127187874722088126518998462150415742200000000000000000000000000000000000000000,
  12642279514102878743007685382100641780616035384673856714588643516098768306961980260515000000000000000000000000000000000000000000,
  12020126575091366997467381436611001285846346621812178719259503365625819328070669153168000000000000000000000000000000000000000000,
  11389525784558004801211986770662342250841963852913661836617770293077092694159417902578000000000000000000000000000000000000000000,
  10750920337158253642044349562898645283209181193774660804875789273619898987668237924940000000000000000000000000000000000000000000,
  10104759054350354564138496888372941268662430590180375379043750468022919530495749496380000000000000000000000000000000000000000000,
  9451496069530714562222793708905258804928150110925008491287996329187386690555414731230000000000000000000000000000000000000000000,
  8791590509819332796720437166752689619703298593325342880761154647410904797557056639100000000000000000000000000000000000000000000,
  8125506175034188487350067581521067441738671085447108060167207682655466248597811180200000000000000000000000000000000000000000000,
  7453711214711867703617020690852086568070874836974335500664980929727658584871492063700000000000000000000000000000000000000000000,
  6776677804736494828897189876125302581689434965130108243888688310327528233541577683600000000000000000000000000000000000000000000,
  6094881826808698245460659032520828287568422682479327099745815943758299844139442409000000000000000000000000000000000000000000000,
  5408802558265150886338804629170234382859977126178278646807534565844345193083305181600000000000000000000000000000000000000000000,
  4718922391805412932849697638032673480825208545810352629663139686269479525763959508000000000000000000000000000000000000000000000,
  4025726642760087736540569893207836872112981900804478161895939841546111499211557135000000000000000000000000000000000000000000000,
  3329703640999647493853032479253260377254634033770571161292275482689221576463183557700000000000000000000000000000000000000000000,
  2631345925735167891361424474246603569624585860982707950185571499307482280167103046700000000000000000000000000000000000000000000,
  1931157007789165690987973755463489677816161985733430753202923187648435387015654094100000000000000000000000000000000000000000000,
  1229701134732874230099567269206971893623286498417400556054413470670602660749840699300000000000000000000000000000000000000000000,
  528420159489470446089370633795711441290254832919374334874277768888571319218455738580000000000000000000000000000000000000000000]

/-- `case 119` (Util/Gauss_Legendre_Nodes_and_Weights.hpp:34472-35004), `nodes`. -/
def nodes119 : List Int := [
  -999797519054378804031423518677080983887490649570736817135269589982468865795207150591028513342658897734319477487192255433767525070,
  -998933293652324408647599922226228528724987668947353258023648358885166831989409546492598073773851014134681628642333137217702267530,
  -997379112777600512802482095838326335428395956548581029172497870649813112987976567766187228174184303062935966625171623276584000640,
  -995135705042442426696177462474127006557469385561527239362900624690781096724416665534476172892568306488574424814328026661163911800,
  -992204578528427453120875129231837664912976730468350620978655727104883693148470326976341704287214658266442478086674306778496536690,
  -988587748814659145735859372016452354100163796374789442510209941104178135232796440072996013501223308936212955385906988507435222790,
  -984287712109353783408953154757467415859404306413746314590234307748534983757541502545802456207474119614152234741375178410770277470,
  -979307438776065817782051971159728014129528540103799596982042547910183454200296747634755376082866743475951806139942849203652348550,
  -973650370018611729343874017207300277494747646014627042352941075693966430938797701904492203229116657406745109648817628347615445910,
  -967320415082974139005037535586260425524233231506424364944777667588292486170421876466600556751513395569306451431275321389447073510,
  -960321948392277766100703752896190451002634072758662811900379965226109232462949645715368999142029460418075443939228434057694053990,
  -952659806452247055627181765775332861051387020583475467300467355632606129230369140730974455784107777449802478367572867025216783120,
  -944339284474568494686474262223144809629282005674081555090994852862282108586200814188812245311669431171134040759751966427849691140,
  -935366132699836796538776725065582776424343893922795252713044389045280203241271139217097686688389062610897033167564709299740935290,
  -925746552414012880725046453242750095398486524955567419438043513664360380619275445475393147619123811242622844063994363155722464900,
  -915487191657253786932934444903584312212865201543820317325854740380425592939783686805883948977626936128300100441925894551814269980,
  -904595140626199708948826448144424146656236323157920678804099382118663058224972824153858136526663261395057375862248904421857032850,
  -893077926771934995972790408880755660604573943850891247992548030859990091479072801426856727657504639120789252491930755681128733980,
  -880943509596496144141579709621649987908078416875486979723245370742616275213888983307432191785632291832488044963122480434322804510,
  -868200275151235412282554623424663805713074358591459656983521886001713066963825600162191122073753547623890024738570250272164229060,
  -854857030240675767766947763816743079546024847111368433952699610093421089196519885381261360873152791370445454900200084861897946220,
  -840922996335763359660051722585296461426534354017438655207077959300423524586486396967899385500320260242384071267380215530093361160,
  -826407803200662867780394238013326138592735809918338553587147652487751221330954940635055351050792506048170699203215351316942871760,
  -811321482237461642665761278876444766827872759362879622013543907967194814766768599209100653850369883197235272375705517519543128680,
  -795674459553357193997280939437958901253557829166289828755248586502255877444248654734656505525351707269830774138169750896160971200,
  -779477548755102874197473946184330830291684338417460074718606020503360937072621793152839208075131289357330237824416410660972761170,
  -762741943475680487821169192988355509372863752352168528119339032603252509748362279763424284642333463626454040067176648730279702600,
  -745479209638357106137028704468194191511159759468566572943286970037984039650429473499502941859746103404913419191664181806459189800,
  -727701277463467161818759031732480363554070282152701178879536384632474844524420437482441446044113602648416308944029661998219253240,
  -709420433223440244669701601518498828103646561869350716864715201954249297802930007101017756695207915796855257043527907286838140950,
  -690649310751770057809155153156564519984118049575390088916457841634870132481467835354586304802988140530705253989842535772670311350,
  -671400882711790771134333488217247207510224461608022291590920576285829312536551454016272868971775174793182497739158661924652386400,
  -651688451631293514271788856993853823947805530142714691459784250758684011013084267982579813111095897878787312642756165667178401760,
  -631525640709177939310542187536705387317542887635396484673203482633975067892440292929769935106032593269334820740325110284398417740,
  -610926384400491588348926170618525257171376833382104295999761942452658461428912258741818994946007006257973907483544888503522941360,
  -589904918786363144096157907695049317784911166834889467098895988443156286491433876278475767313492168240154082402719380084597410000,
  -568475771735484438425301442694388211529936400711793372727887301063867575486518212109931689876858791859607795350211487348983809320,
  -546653752863940255441908766808725914673855041896117261409234594897646829114821953282580465842016951818986756010840140687385376570,
  -524453943300324402691387663897554428665758162062816004305042166870285853895746645209871215785002791033136275347690753784720680080,
  -501891685263215147246734823827219563630307916274086158047669898849778475700275239582668785164851043875362912369517670389565036630,
  -478982571458212834551927178827444921364399209226818484707541811786746437736157685377341051532982287058199696687256554283791087640,
  -455742434301867240973740880609215012494296183658362496254963712504207723093219380839955677121628886660191124866757380189777926890,
  -432187334979941872421798268444432874763099396136005607841925667127487064095977066562778322297923413340598037996015994206862699600,
  -408333552347576930323882378258504448443783430610668106684624542601811240735182406914783936336400155752930728723178216637285308480,
  -384197571679021944943030745781362472579777688341982073464620899802210015870106493433902465177309349176594594234857437832659168960,
  -359796073274713050001774364977809837864228357978878621697528141596463211328056815810685015598789371115999772522229711333147822120,
  -335145920933568470749506769493479172374428236862187618423736220470667713802542383215027880820458331418834215412881165715385892710,
  -310264150298468952408171283348316976749109059256950561263989593572048760753723521796356066692303786300922934103127688583806205880,
  -285167957082977503417383987347105475721996690147579800501373552801061142053613746876508386686446830346193140310408249590530557730,
  -259874685187434907832657962255800837775182535337453368896226611508567005126913041742193764537637936350535534971585639655094160760,
  -234401814712643917139186969324767471073491915722536667757627334405495593140863691314374664598939872898519678538594901507867479410,
  -208766949879425810986369029430424367721696681275783278600158776906938230731813736486507652704979555090999408906706053583177367070,
  -182987806862398070161252717982469112207037594417226368959843347176346483803134534878130916988178116310010286089345353296883919080,
  -157082201546381188661636561012772986549495602627454702162151580787303451286669876760822543605888992383160339886330968265850532330,
  -131068037213896124122679813015647685764813113357647755023083727129337859779758406716413514063720791244255867571692665634312114780,
  -104963292172261510211540279706516092163446960166219383423779036875606392355100053763361507093491157335788217370724597653740598440,
  -78786007328841498075525502538590907097616492375134433510399856324581272966797765019021929881373354390866479131880175573197484430,
  -52554273723030927705192162587531819104443037504619921021591720241108248881651583079938369008336386722517028503479394829575311614,
  -26286220023594429423722912718926431030345266709771819627820397986496924595802813080694416136084977904910348846648438727867928629,
  0,
  26286220023594429423722912718926431030345266709771819627820397986496924595802813080694416136084977904910348846648438727867928629,
  52554273723030927705192162587531819104443037504619921021591720241108248881651583079938369008336386722517028503479394829575311614,
  78786007328841498075525502538590907097616492375134433510399856324581272966797765019021929881373354390866479131880175573197484430,
  104963292172261510211540279706516092163446960166219383423779036875606392355100053763361507093491157335788217370724597653740598440,
  131068037213896124122679813015647685764813113357647755023083727129337859779758406716413514063720791244255867571692665634312114780,
  157082201546381188661636561012772986549495602627454702162151580787303451286669876760822543605888992383160339886330968265850532330,
  182987806862398070161252717982469112207037594417226368959843347176346483803134534878130916988178116310010286089345353296883919080,
  208766949879425810986369029430424367721696681275783278600158776906938230731813736486507652704979555090999408906706053583177367070,
  234401814712643917139186969324767471073491915722536667757627334405495593140863691314374664598939872898519678538594901507867479410,
  259874685187434907832657962255800837775182535337453368896226611508567005126913041742193764537637936350535534971585639655094160760,
  285167957082977503417383987347105475721996690147579800501373552801061142053613746876508386686446830346193140310408249590530557730,
  310264150298468952408171283348316976749109059256950561263989593572048760753723521796356066692303786300922934103127688583806205880,
  335145920933568470749506769493479172374428236862187618423736220470667713802542383215027880820458331418834215412881165715385892710,
  359796073274713050001774364977809837864228357978878621697528141596463211328056815810685015598789371115999772522229711333147822120,
  384197571679021944943030745781362472579777688341982073464620899802210015870106493433902465177309349176594594234857437832659168960,
  408333552347576930323882378258504448443783430610668106684624542601811240735182406914783936336400155752930728723178216637285308480,
  432187334979941872421798268444432874763099396136005607841925667127487064095977066562778322297923413340598037996015994206862699600,
  455742434301867240973740880609215012494296183658362496254963712504207723093219380839955677121628886660191124866757380189777926890,
  478982571458212834551927178827444921364399209226818484707541811786746437736157685377341051532982287058199696687256554283791087640,
  501891685263215147246734823827219563630307916274086158047669898849778475700275239582668785164851043875362912369517670389565036630,
  524453943300324402691387663897554428665758162062816004305042166870285853895746645209871215785002791033136275347690753784720680080,
  546653752863940255441908766808725914673855041896117261409234594897646829114821953282580465842016951818986756010840140687385376570,
  568475771735484438425301442694388211529936400711793372727887301063867575486518212109931689876858791859607795350211487348983809320,
  589904918786363144096157907695049317784911166834889467098895988443156286491433876278475767313492168240154082402719380084597410000,
  610926384400491588348926170618525257171376833382104295999761942452658461428912258741818994946007006257973907483544888503522941360,
  631525640709177939310542187536705387317542887635396484673203482633975067892440292929769935106032593269334820740325110284398417740,
  651688451631293514271788856993853823947805530142714691459784250758684011013084267982579813111095897878787312642756165667178401760,
  671400882711790771134333488217247207510224461608022291590920576285829312536551454016272868971775174793182497739158661924652386400,
  690649310751770057809155153156564519984118049575390088916457841634870132481467835354586304802988140530705253989842535772670311350,
  709420433223440244669701601518498828103646561869350716864715201954249297802930007101017756695207915796855257043527907286838140950,
  727701277463467161818759031732480363554070282152701178879536384632474844524420437482441446044113602648416308944029661998219253240,
  745479209638357106137028704468194191511159759468566572943286970037984039650429473499502941859746103404913419191664181806459189800,
  762741943475680487821169192988355509372863752352168528119339032603252509748362279763424284642333463626454040067176648730279702600,
  779477548755102874197473946184330830291684338417460074718606020503360937072621793152839208075131289357330237824416410660972761170,
  795674459553357193997280939437958901253557829166289828755248586502255877444248654734656505525351707269830774138169750896160971200,
  811321482237461642665761278876444766827872759362879622013543907967194814766768599209100653850369883197235272375705517519543128680,
  826407803200662867780394238013326138592735809918338553587147652487751221330954940635055351050792506048170699203215351316942871760,
  840922996335763359660051722585296461426534354017438655207077959300423524586486396967899385500320260242384071267380215530093361160,
  854857030240675767766947763816743079546024847111368433952699610093421089196519885381261360873152791370445454900200084861897946220,
  868200275151235412282554623424663805713074358591459656983521886001713066963825600162191122073753547623890024738570250272164229060,
  880943509596496144141579709621649987908078416875486979723245370742616275213888983307432191785632291832488044963122480434322804510,
  893077926771934995972790408880755660604573943850891247992548030859990091479072801426856727657504639120789252491930755681128733980,
  904595140626199708948826448144424146656236323157920678804099382118663058224972824153858136526663261395057375862248904421857032850,
  915487191657253786932934444903584312212865201543820317325854740380425592939783686805883948977626936128300100441925894551814269980,
  925746552414012880725046453242750095398486524955567419438043513664360380619275445475393147619123811242622844063994363155722464900,
  935366132699836796538776725065582776424343893922795252713044389045280203241271139217097686688389062610897033167564709299740935290,
  944339284474568494686474262223144809629282005674081555090994852862282108586200814188812245311669431171134040759751966427849691140,
  952659806452247055627181765775332861051387020583475467300467355632606129230369140730974455784107777449802478367572867025216783120,
  960321948392277766100703752896190451002634072758662811900379965226109232462949645715368999142029460418075443939228434057694053990,
  967320415082974139005037535586260425524233231506424364944777667588292486170421876466600556751513395569306451431275321389447073510,
  973650370018611729343874017207300277494747646014627042352941075693966430938797701904492203229116657406745109648817628347615445910,
  979307438776065817782051971159728014129528540103799596982042547910183454200296747634755376082866743475951806139942849203652348550,
  984287712109353783408953154757467415859404306413746314590234307748534983757541502545802456207474119614152234741375178410770277470,
  988587748814659145735859372016452354100163796374789442510209941104178135232796440072996013501223308936212955385906988507435222790,
  992204578528427453120875129231837664912976730468350620978655727104883693148470326976341704287214658266442478086674306778496536690,
  995135705042442426696177462474127006557469385561527239362900624690781096724416665534476172892568306488574424814328026661163911800,
  997379112777600512802482095838326335428395956548581029172497870649813112987976567766187228174184303062935966625171623276584000640,
  998933293652324408647599922226228528724987668947353258023648358885166831989409546492598073773851014134681628642333137217702267530,
  999797519054378804031423518677080983887490649570736817135269589982468865795207150591028513342658897734319477487192255433767525070]

/-- `case 119` (Util/Gauss_Legendre_Nodes_and_Weights.hpp:34472-35004), `weights`. -/
def weights119 : List Nat := [
  519613956849556150140415502500094226894423033161437226961191465755399291660046648880000000000000000000000000000000000000000000,
  1209213883866883959735917867448584560160626033724010438634069905127714703096534308800000000000000000000000000000000000000000000,
  1898999949557006871084072471107943676722157336413205415046142274695263691612791867300000000000000000000000000000000000000000000,
  2587562397456636098522787486493749149494929675474847996665405252339566449036883107000000000000000000000000000000000000000000000,
  3274354418841928441257534150970019021748654735301074295528782260076964397650380627000000000000000000000000000000000000000000000,
  3958888887248887575842599098145519157035609108343549394189759329199450473010672804000000000000000000000000000000000000000000000,
  4640689411578200180725619501774539160772891366585516963584372420466564616155277078000000000000000000000000000000000000000000000,
  5319283675408655521248622057996162481641339959799546606132932189035922995125873366000000000000000000000000000000000000000000000,
  5994202251056675895762494250609287616694440394412564612012443109031673105958455194000000000000000000000000000000000000000000000,
  6664978498225184120218070299555719102806321147307698499273322747602784181894719584000000000000000000000000000000000000000000000,
  7331148742639668982641357516311436068251274680415763394462511047929272889088556941000000000000000000000000000000000000000000000,
  7992252540868528146555355625464298227795339234448535444377732798888272283613686014400000000000000000000000000000000000000000000,
  8647832974665581511454144091800002217117698142981947899378710686037571340442437206900000000000000000000000000000000000000000000,
  9297436955615200339101176791313739861371032346901232539150182709167420946805292811200000000000000000000000000000000000000000000,
  9940615532705796792440177685359585183104723827708141741541367952730597952070587083500000000000000000000000000000000000000000000,
  10576924199664789249143708205117722916375504940007331626948037736208925229968784968030000000000000000000000000000000000000000000,
  11205923200529858042664293964088329588959379314627414430746870862482587384752115271760000000000000000000000000000000000000000000,
  11827177832624201625209942067671361019842501121652558789137864650995359428570386318053000000000000000000000000000000000000000000,
  12440258746416395898360642477348362029333799850370897206444073527366028671333233720954000000000000000000000000000000000000000000,
  13044742241895570956299628001860791523881146903699114998331708482646029795346001523425000000000000000000000000000000000000000000,
  13640210561168882818462218103619388271595876031901907481043804587076033923373522180027800000000000000000000000000000000000000000,
  14226252177029327414537238238805613060156459492462525901830643840309701635084186074868800000000000000000000000000000000000000000,
  14802462077265518230019324718372829953364249187448410867584569771582623282302385342348200000000000000000000000000000000000000000,
  15368442044499609383872178453287091763577193320022877862204676147067442703085647500339150000000000000000000000000000000000000000,
  15923800931349324935180342569621696080789926397981474265052473752501088198775261292355532000000000000000000000000000000000000000,
  16468154930717242215283327706597338800502784546632320142516343595137632761166681922393202500000000000000000000000000000000000000,
  17001127841016241341944228187672854647155076082958720315318918586342613803584600732510385700000000000000000000000000000000000000,
  17522351326145017538116360616317813013223976391114890721019155715283400669473471410411722010000000000000000000000000000000000000,
  18031465170032119810932788390353685781961901783990457834185792046657156864432319055915131362000000000000000000000000000000000000,
  18528117525571337807927346807029256581597931385440813277092456131134189252132779849457069888000000000000000000000000000000000000,
  19011965157775530906874571305247639632147174395743692395599180235182456133486656456296228454100000000000000000000000000000000000,
  19482673680980252887647564004906702465624469320971752436135529079743226379569956115651879812250000000000000000000000000000000000,
  19939917789932815815282862314093184703793496433449383902151628761984247751866143573102148581130000000000000000000000000000000000,
  20383381484606784488079095994906909423748198724865768874276201705029232592372225244134113886787200000000000000000000000000000000,
  20812758288586313735664817290228392265608978951907537275869673354135384370227486591946261276412720000000000000000000000000000000,
  21227751460869244089821400260471428978729714520613401337418679507459464961521379693132784800869963000000000000000000000000000000,
  21628074200942461769184055121997616004084087269964088375937706872532765330218678361848096173637395000000000000000000000000000000,
  22013449846987708662226013091613750909426236467141459843719873037830271234127187775305866814455782600000000000000000000000000000,
  22383612067080797411381145619222604766745353645074240021046499021526405455378555891544011085206694290000000000000000000000000000,
  22738305043252044943602610700144916864095928656993356170031867097372770131686493695848326425267618537000000000000000000000000000,
  23077283648280683187858973097911080740876265418933124150501001703224355534316701685904340388020884488800000000000000000000000000,
  23400313615101036025522334434211242750350814727904175621904377726031363918739553191936470587406803797978000000000000000000000000,
  23707171698703364086064106655290897145036694384234335910335202734555029374671458377462219761408321796062000000000000000000000000,
  23997645830417470882345435532582908687597170452863795489991259947236597178119941988248521398328038657637890000000000000000000000,
  24271535264472431810218388966907953016847667247040642642505047066217068045824231717607374417805111490887357000000000000000000000,
  24528650716731148379916497809767392390640694245735281176077197302690421750946574056598348438192213177352585700000000000000000000,
  24768814495503840232649226102184306362653736828918001834086085466077415015637403790641615407268445767882723574000000000000000000,
  24991860624350063448886989684305831170479750530071649988923276984202779889276508788253174418386002580844764044300000000000000000,
  25197634956784381711135687235693382467833193518881610016230629039319064278555753576566829285585287140616084087710000000000000000,
  25385995282806413306002304894823868766645377472142492233980775639534608357763226313243005417234496964178874841051000000000000000,
  25556811427181627937724243298243174862625805497050717669304044839627060517028170622228923263009048879267528057780860000000000000,
  25709965339404969023555306347961799076268732489242378699109736432964368490619167739172008395763143302411794429747878000000000000,
  25845351175285125648712498770278929732718490531570284916705059703287062363358616307396858568277818151264275367155201600000000000,
  25962875370093069731813092619073439425271307609842901678884000949755777108457798402266770680937798706384565933683729311000000000,
  26062456703224304211289712607787269549581797178990566827678287012340232004291264106459640474384163479205917203136532231300000000,
  26144026354330133197617145474038648386458527765317404037408866113859423854900289620890264670039080594765037986855186848360000000,
  26207527950879161005838378385461321060770580199900224555321010195846568785807237637920735791111506676202535728509849094312600000,
  26252917607116149724159970165534659494469987137981011713836500201371149633331479782451270037477678677066415917807481856519691000,
  26280163954391310402943803008541838758941389761985353851737669327951099637779399747825473580328145297153911505564615928549173000,
  26289248162839066962595712603904190791998421682757156333793634720474153999033774684543084941187261035177426770128060457784879874,
  26280163954391310402943803008541838758941389761985353851737669327951099637779399747825473580328145297153911505564615928549173000,
  26252917607116149724159970165534659494469987137981011713836500201371149633331479782451270037477678677066415917807481856519691000,
  26207527950879161005838378385461321060770580199900224555321010195846568785807237637920735791111506676202535728509849094312600000,
  26144026354330133197617145474038648386458527765317404037408866113859423854900289620890264670039080594765037986855186848360000000,
  26062456703224304211289712607787269549581797178990566827678287012340232004291264106459640474384163479205917203136532231300000000,
  25962875370093069731813092619073439425271307609842901678884000949755777108457798402266770680937798706384565933683729311000000000,
  25845351175285125648712498770278929732718490531570284916705059703287062363358616307396858568277818151264275367155201600000000000,
  25709965339404969023555306347961799076268732489242378699109736432964368490619167739172008395763143302411794429747878000000000000,
  25556811427181627937724243298243174862625805497050717669304044839627060517028170622228923263009048879267528057780860000000000000,
  25385995282806413306002304894823868766645377472142492233980775639534608357763226313243005417234496964178874841051000000000000000,
  25197634956784381711135687235693382467833193518881610016230629039319064278555753576566829285585287140616084087710000000000000000,
  24991860624350063448886989684305831170479750530071649988923276984202779889276508788253174418386002580844764044300000000000000000,
  24768814495503840232649226102184306362653736828918001834086085466077415015637403790641615407268445767882723574000000000000000000,
  24528650716731148379916497809767392390640694245735281176077197302690421750946574056598348438192213177352585700000000000000000000,
  24271535264472431810218388966907953016847667247040642642505047066217068045824231717607374417805111490887357000000000000000000000,
  23997645830417470882345435532582908687597170452863795489991259947236597178119941988248521398328038657637890000000000000000000000,
  23707171698703364086064106655290897145036694384234335910335202734555029374671458377462219761408321796062000000000000000000000000,
  23400313615101036025522334434211242750350814727904175621904377726031363918739553191936470587406803797978000000000000000000000000,
  23077283648280683187858973097911080740876265418933124150501001703224355534316701685904340388020884488800000000000000000000000000,
  22738305043252044943602610700144916864095928656993356170031867097372770131686493695848326425267618537000000000000000000000000000,
  22383612067080797411381145619222604766745353645074240021046499021526405455378555891544011085206694290000000000000000000000000000,
  22013449846987708662226013091613750909426236467141459843719873037830271234127187775305866814455782600000000000000000000000000000,
  21628074200942461769184055121997616004084087269964088375937706872532765330218678361848096173637395000000000000000000000000000000,
  21227751460869244089821400260471428978729714520613401337418679507459464961521379693132784800869963000000000000000000000000000000,
  20812758288586313735664817290228392265608978951907537275869673354135384370227486591946261276412720000000000000000000000000000000,
  20383381484606784488079095994906909423748198724865768874276201705029232592372225244134113886787200000000000000000000000000000000,
  19939917789932815815282862314093184703793496433449383902151628761984247751866143573102148581130000000000000000000000000000000000,
  19482673680980252887647564004906702465624469320971752436135529079743226379569956115651879812250000000000000000000000000000000000,
  19011965157775530906874571305247639632147174395743692395599180235182456133486656456296228454100000000000000000000000000000000000,
  18528117525571337807927346807029256581597931385440813277092456131134189252132779849457069888000000000000000000000000000000000000,
  18031465170032119810932788390353685781961901783990457834185792046657156864432319055915131362000000000000000000000000000000000000,
  17522351326145017538116360616317813013223976391114890721019155715283400669473471410411722010000000000000000000000000000000000000,
  17001127841016241341944228187672854647155076082958720315318918586342613803584600732510385700000000000000000000000000000000000000,
  16468154930717242215283327706597338800502784546632320142516343595137632761166681922393202500000000000000000000000000000000000000,
  15923800931349324935180342569621696080789926397981474265052473752501088198775261292355532000000000000000000000000000000000000000,
  15368442044499609383872178453287091763577193320022877862204676147067442703085647500339150000000000000000000000000000000000000000,
  14802462077265518230019324718372829953364249187448410867584569771582623282302385342348200000000000000000000000000000000000000000,
  14226252177029327414537238238805613060156459492462525901830643840309701635084186074868800000000000000000000000000000000000000000,
  13640210561168882818462218103619388271595876031901907481043804587076033923373522180027800000000000000000000000000000000000000000,
  13044742241895570956299628001860791523881146903699114998331708482646029795346001523425000000000000000000000000000000000000000000,
  12440258746416395898360642477348362029333799850370897206444073527366028671333233720954000000000000000000000000000000000000000000,
  11827177832624201625209942067671361019842501121652558789137864650995359428570386318053000000000000000000000000000000000000000000,
  11205923200529858042664293964088329588959379314627414430746870862482587384752115271760000000000000000000000000000000000000000000,
  10576924199664789249143708205117722916375504940007331626948037736208925229968784968030000000000000000000000000000000000000000000,
  9940615532705796792440177685359585183104723827708141741541367952730597952070587083500000000000000000000000000000000000000000000,
  9297436955615200339101176791313739861371032346901232539150182709167420946805292811200000000000000000000000000000000000000000000,
  8647832974665581511454144091800002217117698142981947899378710686037571340442437206900000000000000000000000000000000000000000000,
  7992252540868528146555355625464298227795339234448535444377732798888272283613686014400000000000000000000000000000000000000000000,
  7331148742639668982641357516311436068251274680415763394462511047929272889088556941000000000000000000000000000000000000000000000,
  6664978498225184120218070299555719102806321147307698499273322747602784181894719584000000000000000000000000000000000000000000000,
  5994202251056675895762494250609287616694440394412564612012443109031673105958455194000000000000000000000000000000000000000000000,
  5319283675408655521248622057996162481641339959799546606132932189035922995125873366000000000000000000000000000000000000000000000,
  4640689411578200180725619501774539160772891366585516963584372420466564616155277078000000000000000000000000000000000000000000000,
  3958888887248887575842599098145519157035609108343549394189759329199450473010672804000000000000000000000000000000000000000000000,
  3274354418841928441257534150970019021748654735301074295528782260076964397650380627000000000000000000000000000000000000000000000,
  2587562397456636098522787486493749149494929675474847996665405252339566449036883107000000000000000000000000000000000000000000000,
  1898999949557006871084072471107943676722157336413205415046142274695263691612791867300000000000000000000000000000000000000000000,
  1209213883866883959735917867448584560160626033724010438634069905127714703096534308800000000000000000000000000000000000000000000,
  519613956849556150140415502500094226894423033161437226961191465755399291660046648880000000000000000000000000000000000000000000]

/-- `case 120` (Util/Gauss_Legendre_Nodes_and_Weights.hpp:35006-35544), `nodes`. -/
def nodes120 : List Int := [
  -999800865658958920571834666496673580187739913632711847290252670525176402442436732491827779791580688786455592242446363868999375500,
  -998950921674034706738042229490028733545070478555910701769358345792666263005892017517076023404803063657796898697956123912332145150,
  -997422413613290525880311490247385387555501509574261501254487106600848226110919153317038113097289085643221241780955423257725426330,
  -995216040598908166416630589706016331398321796633458017538441196253140403937756794577977595399094389079998110868817606735563598840,
  -992333260616166485261938457187967188154935568777694580039923917615315026535592212548361749043436302195987443114986629323378764110,
  -988776023071526124598288707791375849943098586680908876819380717967991218534795231245590978099186264002585122615560395940712023650,
  -984546742413410552334149005842180001532427167269247977486344631222829562895188072838216278650615082363982573572428216259442442580,
  -979648291821042244880891327731677040101199086164126919756975980067548161325578884128546734657343984106183025390026028870376585170,
  -974084000010228009945926848732963600903724558107379272068497553307031765198899541942739243699939096435249004603435960792242980260,
  -967857648557972268674049676296187411376722949731602816907312543104542553908794596105430692358438914631807254925537568615673848220,
  -960973469171582638789536808207551984817824019211187475509061808327300407864236002673059916577362769805417244501978148693662506600,
  -953436140742275773161950044015239721303127621029485353740805204089094910772484441284230302961259209214004393189780346170718431310,
  -945250786131475632819581597769378283256294214243531647358735307236720457435387253722424402649773697307732078801259242430077324890,
  -936422968671675841438648271316751204613831515862503421703162879789519287611044870402488156634173771925090338912379451428494960230,
  -926958688375773690511600795624308375219883087159628238169657828641161241365500513169993029376288411566732887115040042270427324380,
  -916864377853623791746567918596396484097030814983399261400440391353908209312301358718435101431173866689908929664341831967741847730,
  -906146897936737506781900307938508515652949884805374061238214716403883611905434916674880646094433659695144604910198936908498163480,
  -894813533013157231973331167282718436448870520923107559117261242563743800384696194443156063999202584706305922212682366794738583600,
  -882871986075170076041629777695152600962923340158054149070849092190431035118309475599180977736801439818761012469703163998912265930,
  -870330373482944157202326585058461172019231730913060277105309711978342275627053011044951271147520140151236592914514426369560304110,
  -857197219447482846376944289199856774065926338402136788259683687811134490121573265444693706562893305409784940165969360966811078880,
  -843481450236548903010743879075209470999947196704241892215570235734030626577113650454468718657681949424644231770944662438514148370,
  -829192388107436421970637133923419433950657120906371000418045795161411810556480829740685873204849421610325621466497768428552637290,
  -814339744970676386556385822244998353736009544742628349238856387069134388541963937325660241451148209245974753723373587704976494880,
  -798933615788957963293023048445780034547090261215610302751694726218642821465076877948907908335872704670696052929105860611217553910,
  -782984471715735998518093593151160599860737140985518362094011800241516250895769100486576571473725958154217060314959097362928331660,
  -766503152978177408796942398483061153002156205108491872882495173994263534920090169730971757177602734957960240419564135937438012900,
  -749500861509276357201043268985377393659410710815218858665130316145194624660430840303113416763100142376012786837216212630630382630,
  -731989153334140855391434888181325092292607867637007265607968726697503281001043706689163437750765165740659289545924144411435465820,
  -713979930715622033464844235579798042769847067835717152463149677980655110123879107974576061487566071744954278571724171066554952160,
  -695485434064621922598389872712667256984246732871479650490855993180759980380029291038140109221786907617578962705322814492222248560,
  -676518233620576252364873996441661715433104239086853882016627237547826541952352337571030791460012181162005072095365527269416992990,
  -657091220907765471368109823420563867399209458043918745333363674304019169808624157755593505943509922652258959354918401382592136330,
  -637217599973259918634006444891729834580731884877105671121765417635763794303852006243459543793271556248595407739884937312787836520,
  -616910878412453745494190304161276210512234358905100049914402990856994793620381258258463246393628025501672358897707866888148447930,
  -596184858188286742819181202680337409735935916504705498984696767021668028833427430548745798540361096666701976243146317298635169360,
  -575053626250393588751112625440363220152702784014487420217046419268075873475756216947891391890625605706414890899693329613758521430,
  -553531544960556116311112129277648310306077458749285490004135262096625667067916899857867882861492288779847330704765048320810858990,
  -531633242330965925763017612825845283146987439799697501768362377107964085958926998558495029712788822677683126008341272308238646350,
  -509373602081931950788753949657949425298580744546016652136983379514719315766803211772925152975356277796141109404417294836977067800,
  -486767753525790348769321672843584547253598665683767775022404977794220165736878551832804174819314547447943915954415254203033898020,
  -463831061283892243850279298329506865082200843067381627314750419354669938595898434807933964967873778382882832011170137209416517060,
  -440579114843658329237831764659730572761551436922576278370849756092395098831347610249475228607711665649677423039534903712324212610,
  -417027717962798057050032599257662064423787558937836255029176051229259758166208235903187521846368062155302386186612257508164331930,
  -393192877927895037507321715953797241509456001407764309715087841770122224414119285562927284128197497763139110153078471842602259930,
  -369090794674659264686090700763473140323591298346057574318453088813548021252694714448624270853680056678387568191875232195283258820,
  -344737849777240816949205623061114016410583731289191968654084126870806682775820633817185101593153224072935328439976311713553941940,
  -320150595314088683166138827860442186481888854499918320869252404770020397772975006793716596621399774023533767252475899719146293970,
  -295345742617922280879396436676051358086850032075308110019000476300012213891418350065143974459319630980955117087134934211612717710,
  -270340150917462002955682085507747778685461338143984203873664479443052916385007323931496348579905449347733127167825251872637305120,
  -245150815878638701692147808990384824766141124631920403420544033041554141868229253062728056484331997239236814729662428557453911070,
  -219794858053070344017820345383117205156954990477394848736731736036518037277130569628739803670750287390422310301239661222982850900,
  -194289511241657102048607304638489552794110102231546505765468936635688068180054992122581688185310456087217499285204407345059843050,
  -168652110781203837096856638011230826873178269086772433684670412503286180568348187724489276667582023790811765253999372593482734230,
  -142900081762031253180641562484660933063326363718936728099771059387551877886400845434331869750342100023806921348244706760596653760,
  -117050927184583902635245516636127673791655618186529927001209516210655458872717815546771003557380215966428411711975688506718478670,
  -91122216063084689773787837496926525859927598395369190667910939468906412779374990976531748624943958721716253156430861245382451919,
  -65131571484321510537135042828751268207289870180867328614483532935646101558588567958436195319080760670301100614675242732658603985,
  -39096658629682162285889586333125527555124644103948233897738645216128657118994742101818139733942565537792267899225346157238039239,
  -13035172768578637617654646560194081525247563098364831909507762418222021030322455655635714777323169918416799792135999891259324052,
  13035172768578637617654646560194081525247563098364831909507762418222021030322455655635714777323169918416799792135999891259324052,
  39096658629682162285889586333125527555124644103948233897738645216128657118994742101818139733942565537792267899225346157238039239,
  65131571484321510537135042828751268207289870180867328614483532935646101558588567958436195319080760670301100614675242732658603985,
  91122216063084689773787837496926525859927598395369190667910939468906412779374990976531748624943958721716253156430861245382451919,
  117050927184583902635245516636127673791655618186529927001209516210655458872717815546771003557380215966428411711975688506718478670,
  142900081762031253180641562484660933063326363718936728099771059387551877886400845434331869750342100023806921348244706760596653760,
  168652110781203837096856638011230826873178269086772433684670412503286180568348187724489276667582023790811765253999372593482734230,
  194289511241657102048607304638489552794110102231546505765468936635688068180054992122581688185310456087217499285204407345059843050,
  219794858053070344017820345383117205156954990477394848736731736036518037277130569628739803670750287390422310301239661222982850900,
  245150815878638701692147808990384824766141124631920403420544033041554141868229253062728056484331997239236814729662428557453911070,
  270340150917462002955682085507747778685461338143984203873664479443052916385007323931496348579905449347733127167825251872637305120,
  295345742617922280879396436676051358086850032075308110019000476300012213891418350065143974459319630980955117087134934211612717710,
  320150595314088683166138827860442186481888854499918320869252404770020397772975006793716596621399774023533767252475899719146293970,
  344737849777240816949205623061114016410583731289191968654084126870806682775820633817185101593153224072935328439976311713553941940,
  369090794674659264686090700763473140323591298346057574318453088813548021252694714448624270853680056678387568191875232195283258820,
  393192877927895037507321715953797241509456001407764309715087841770122224414119285562927284128197497763139110153078471842602259930,
  417027717962798057050032599257662064423787558937836255029176051229259758166208235903187521846368062155302386186612257508164331930,
  440579114843658329237831764659730572761551436922576278370849756092395098831347610249475228607711665649677423039534903712324212610,
  463831061283892243850279298329506865082200843067381627314750419354669938595898434807933964967873778382882832011170137209416517060,
  486767753525790348769321672843584547253598665683767775022404977794220165736878551832804174819314547447943915954415254203033898020,
  509373602081931950788753949657949425298580744546016652136983379514719315766803211772925152975356277796141109404417294836977067800,
  531633242330965925763017612825845283146987439799697501768362377107964085958926998558495029712788822677683126008341272308238646350,
  553531544960556116311112129277648310306077458749285490004135262096625667067916899857867882861492288779847330704765048320810858990,
  575053626250393588751112625440363220152702784014487420217046419268075873475756216947891391890625605706414890899693329613758521430,
  596184858188286742819181202680337409735935916504705498984696767021668028833427430548745798540361096666701976243146317298635169360,
  616910878412453745494190304161276210512234358905100049914402990856994793620381258258463246393628025501672358897707866888148447930,
  637217599973259918634006444891729834580731884877105671121765417635763794303852006243459543793271556248595407739884937312787836520,
  657091220907765471368109823420563867399209458043918745333363674304019169808624157755593505943509922652258959354918401382592136330,
  676518233620576252364873996441661715433104239086853882016627237547826541952352337571030791460012181162005072095365527269416992990,
  695485434064621922598389872712667256984246732871479650490855993180759980380029291038140109221786907617578962705322814492222248560,
  713979930715622033464844235579798042769847067835717152463149677980655110123879107974576061487566071744954278571724171066554952160,
  731989153334140855391434888181325092292607867637007265607968726697503281001043706689163437750765165740659289545924144411435465820,
  749500861509276357201043268985377393659410710815218858665130316145194624660430840303113416763100142376012786837216212630630382630,
  766503152978177408796942398483061153002156205108491872882495173994263534920090169730971757177602734957960240419564135937438012900,
  782984471715735998518093593151160599860737140985518362094011800241516250895769100486576571473725958154217060314959097362928331660,
  798933615788957963293023048445780034547090261215610302751694726218642821465076877948907908335872704670696052929105860611217553910,
  814339744970676386556385822244998353736009544742628349238856387069134388541963937325660241451148209245974753723373587704976494880,
  829192388107436421970637133923419433950657120906371000418045795161411810556480829740685873204849421610325621466497768428552637290,
  843481450236548903010743879075209470999947196704241892215570235734030626577113650454468718657681949424644231770944662438514148370,
  857197219447482846376944289199856774065926338402136788259683687811134490121573265444693706562893305409784940165969360966811078880,
  870330373482944157202326585058461172019231730913060277105309711978342275627053011044951271147520140151236592914514426369560304110,
  882871986075170076041629777695152600962923340158054149070849092190431035118309475599180977736801439818761012469703163998912265930,
  894813533013157231973331167282718436448870520923107559117261242563743800384696194443156063999202584706305922212682366794738583600,
  906146897936737506781900307938508515652949884805374061238214716403883611905434916674880646094433659695144604910198936908498163480,
  916864377853623791746567918596396484097030814983399261400440391353908209312301358718435101431173866689908929664341831967741847730,
  926958688375773690511600795624308375219883087159628238169657828641161241365500513169993029376288411566732887115040042270427324380,
  936422968671675841438648271316751204613831515862503421703162879789519287611044870402488156634173771925090338912379451428494960230,
  945250786131475632819581597769378283256294214243531647358735307236720457435387253722424402649773697307732078801259242430077324890,
  953436140742275773161950044015239721303127621029485353740805204089094910772484441284230302961259209214004393189780346170718431310,
  960973469171582638789536808207551984817824019211187475509061808327300407864236002673059916577362769805417244501978148693662506600,
  967857648557972268674049676296187411376722949731602816907312543104542553908794596105430692358438914631807254925537568615673848220,
  974084000010228009945926848732963600903724558107379272068497553307031765198899541942739243699939096435249004603435960792242980260,
  979648291821042244880891327731677040101199086164126919756975980067548161325578884128546734657343984106183025390026028870376585170,
  984546742413410552334149005842180001532427167269247977486344631222829562895188072838216278650615082363982573572428216259442442580,
  988776023071526124598288707791375849943098586680908876819380717967991218534795231245590978099186264002585122615560395940712023650,
  992333260616166485261938457187967188154935568777694580039923917615315026535592212548361749043436302195987443114986629323378764110,
  995216040598908166416630589706016331398321796633458017538441196253140403937756794577977595399094389079998110868817606735563598840,
  997422413613290525880311490247385387555501509574261501254487106600848226110919153317038113097289085643221241780955423257725426330,
  998950921674034706738042229490028733545070478555910701769358345792666263005892017517076023404803063657796898697956123912332145150,
  999800865658958920571834666496673580187739913632711847290252670525176402442436732491827779791580688786455592242446363868999375500]

/-- `case 120` (Util/Gauss_Legendre_Nodes_and_Weights.hpp:35006-35544), `weights`. -/
def weights120 : List Nat := [
  511026063694612117972966138624641395179715391664787980394148590407076717893247149640000000000000000000000000000000000000000000,
  1189234327793165147933850923793043123706267052709079832174594419507048758084928831300000000000000000000000000000000000000000000,
  1867639230771965054377298672152316973350686627787857905013033937373962763116884726000000000000000000000000000000000000000000000,
  2544862054010306436240245131145719534775680994554266604821209079280778353063376228000000000000000000000000000000000000000000000,
  3220372733926267531503725768245795019913421148191723949787677844473922618458219118000000000000000000000000000000000000000000000,
  3893699862901465308274382364069200216234062679368021485541312774652298004789449624000000000000000000000000000000000000000000000,
  4564382540882116035584593259705008240073367978965712036316109402630885528706087454000000000000000000000000000000000000000000000,
  5231963814295594246505688519840845039461609812068582230127720049051087048598513206000000000000000000000000000000000000000000000,
  5895989499283734211223922979750033475613072420590113360868525056090883157297224955000000000000000000000000000000000000000000000,
  6556008071671613990395393758583156332587460684493247157703334230915340733503946466000000000000000000000000000000000000000000000,
  7211570832379638738933365086698231973875679907870905688023397514749937566074333986000000000000000000000000000000000000000000000,
  7862232157689980238179989396110914754982998014428718879449741108900799527500448067000000000000000000000000000000000000000000000,
  8507549778652352279586216895833020134360988408642497934128247563309936443294906964200000000000000000000000000000000000000000000,
  9147085070737667992262011179487291324306549741004582349581081443725027948970833853200000000000000000000000000000000000000000000,
  9780403346497527175887338528825974762838954617117715419933007086227698951058104722900000000000000000000000000000000000000000000,
  10407074148125193313706836945681332296535747919145551438874734786027035591485796486200000000000000000000000000000000000000000000,
  11026671538428158911345331994678853046502372943784771051235159734739255391245401128080000000000000000000000000000000000000000000,
  11638774389403706420644008240251212865639765160020620595831695634803271043856408914740000000000000000000000000000000000000000000,
  12242966667916449981832228594948877316653225790296145588355162745348653439582762434691000000000000000000000000000000000000000000,
  12838837718124321545610248576754253018382662887540554459308471159692141384228719396418000000000000000000000000000000000000000000,
  13425982540374306852219168979274975786916106585487042614306330206210812615266955128443000000000000000000000000000000000000000000,
  14004002066329457983319727769125348223052916268338033886449278743294020468569660336910300000000000000000000000000000000000000000,
  14572503430111715481408727261391441789498613912505899716421207038780480524743763826915700000000000000000000000000000000000000000,
  15131100235259206066793694778341803289217379997052326990955572160238545735635926922743790000000000000000000000000000000000000000,
  15679412817306104419524350335203380039482610106607836954830008411530206781218751631408683000000000000000000000000000000000000000,
  16217068501800012625594202585306731372523811888864881975654597094775776216288217109198068000000000000000000000000000000000000000,
  16743701857577268944904228251527372625530449254189382118676882768653583726841048099109095500000000000000000000000000000000000000,
  17258954945121280845789208595358496059710559922713658215930533390233421381647199296825007710000000000000000000000000000000000000,
  17762477559833242327028235218640306137893483848506405867863509393918670601001861042644969650000000000000000000000000000000000000,
  18253927470048648016840211433223366229884157298404198085606103239081804337669674116144662105000000000000000000000000000000000000,
  18732970649636977222863231120824190619510653870012694483323113644903806636370767687955900954500000000000000000000000000000000000,
  19199281505025862081638093383894653994939197240444921778486573179933853672183504052736566992360000000000000000000000000000000000,
  19652543096495018643983610875642565296780739161961206659981933360402308445920125313147535069590000000000000000000000000000000000,
  20092447353589234370958946160751119478379352124041156650190861346767571595156015394078883166094000000000000000000000000000000000,
  20518695284503785830960745685554251194262012533583821721483543613719916028086317768874090767189900000000000000000000000000000000,
  20930997179299815562310099302686662003976695546177851012849334025644703232747216231663052141491400000000000000000000000000000000,
  21329072806811432126534484659329667191403516816248695172119387430411952096929538509911272123573067000000000000000000000000000000,
  21712651605110614675506285627501714271913565964354735893739884724255033061764456106228205035013842300000000000000000000000000000,
  22081472865400403481097748329153125034488194576154696467710204115304197617637225770590834094905810530000000000000000000000000000,
  22435285909211340242693079025226547740147348116101904934157973138755067321665233406561921814887327330000000000000000000000000000,
  22773850258780685207441929112921659702706045557116228559789286669546472649772445062996859173563509620000000000000000000000000000,
  23096935800498580264713916513327678248924899754453106564221850541694722094190755671414589874868785489570000000000000000000000000,
  23404322941310045868097254639737722615798135407620708627130662188016632757831452373761818173280441504668000000000000000000000000,
  23695802757966492266188827235729379990892452216690481836273734475652788188482769947289766820320392832974700000000000000000000000,
  23971177139025289244136265313277410303551200636351386580805900968205878961375080502757473539824587398028450000000000000000000000,
  24230258919500870385078638829416636928319910011567159281004075909538093918190182868185475047052753461314027300000000000000000000,
  24472872008075844620437139583225404219232603944503247612588054549492875844452257678665272022775760044851025780000000000000000000,
  24698851506785646314454887258204798724797358575389846387213382650031768734403543913476342846298498282723703529000000000000000000,
  24908043823095372001850020678932960656102157073639300981779812407179020007816567579346468792131301801991946275800000000000000000,
  25100306774292623778386169480274624420146075949947424443816523997980010570226268463825990370127022323504198833667000000000000000,
  25275509684125402783584739716570815983408316325889008262796589997942465850714248824739603821942670793079611885630300000000000000,
  25433533471619367712449681059873670801825670086865482443564892424861522465098536345884909765725123714085458536063440000000000000,
  25574270732014089304034166705165394860639000650078316683187574822029727094372993659755453602777280831102294218286472900000000000,
  25697625809763288694857727815288888394524562203276629488913758009992923496847619165577766864605285420704409941928598670000000000,
  25803514863549441775996214980089410608841209063276145789726316483315041107888194788271231106879190261202105261345047416000000000,
  25891865923268559605155597973132343463108533138163974602030982372720930068738387763505558257761188901698365071429980931920000000,
  25962618938946412823583815431684070010817066683899706529444382454292964010901617624068490009043771541300178618605677221661000000,
  26015725821552952213415019981908977565808463430856117323051903683880732400122327870155299366158240257337590452631602274430060000,
  26051150475687184285096143384515482539199178784619434185430213708187590971905977748132888946309157159164564839691029280882959000,
  26068868824110286371074121973585230736871505293799486669024906496715065738515720684908579193704773747371368946561446723496233090,
  26068868824110286371074121973585230736871505293799486669024906496715065738515720684908579193704773747371368946561446723496233090,
  26051150475687184285096143384515482539199178784619434185430213708187590971905977748132888946309157159164564839691029280882959000,
  26015725821552952213415019981908977565808463430856117323051903683880732400122327870155299366158240257337590452631602274430060000,
  25962618938946412823583815431684070010817066683899706529444382454292964010901617624068490009043771541300178618605677221661000000,
  25891865923268559605155597973132343463108533138163974602030982372720930068738387763505558257761188901698365071429980931920000000,
  25803514863549441775996214980089410608841209063276145789726316483315041107888194788271231106879190261202105261345047416000000000,
  25697625809763288694857727815288888394524562203276629488913758009992923496847619165577766864605285420704409941928598670000000000,
  25574270732014089304034166705165394860639000650078316683187574822029727094372993659755453602777280831102294218286472900000000000,
  25433533471619367712449681059873670801825670086865482443564892424861522465098536345884909765725123714085458536063440000000000000,
  25275509684125402783584739716570815983408316325889008262796589997942465850714248824739603821942670793079611885630300000000000000,
  25100306774292623778386169480274624420146075949947424443816523997980010570226268463825990370127022323504198833667000000000000000,
  24908043823095372001850020678932960656102157073639300981779812407179020007816567579346468792131301801991946275800000000000000000,
  24698851506785646314454887258204798724797358575389846387213382650031768734403543913476342846298498282723703529000000000000000000,
  24472872008075844620437139583225404219232603944503247612588054549492875844452257678665272022775760044851025780000000000000000000,
  24230258919500870385078638829416636928319910011567159281004075909538093918190182868185475047052753461314027300000000000000000000,
  23971177139025289244136265313277410303551200636351386580805900968205878961375080502757473539824587398028450000000000000000000000,
  23695802757966492266188827235729379990892452216690481836273734475652788188482769947289766820320392832974700000000000000000000000,
  23404322941310045868097254639737722615798135407620708627130662188016632757831452373761818173280441504668000000000000000000000000,
  23096935800498580264713916513327678248924899754453106564221850541694722094190755671414589874868785489570000000000000000000000000,
  22773850258780685207441929112921659702706045557116228559789286669546472649772445062996859173563509620000000000000000000000000000,
  22435285909211340242693079025226547740147348116101904934157973138755067321665233406561921814887327330000000000000000000000000000,
  22081472865400403481097748329153125034488194576154696467710204115304197617637225770590834094905810530000000000000000000000000000,
  21712651605110614675506285627501714271913565964354735893739884724255033061764456106228205035013842300000000000000000000000000000,
  21329072806811432126534484659329667191403516816248695172119387430411952096929538509911272123573067000000000000000000000000000000,
  20930997179299815562310099302686662003976695546177851012849334025644703232747216231663052141491400000000000000000000000000000000,
  20518695284503785830960745685554251194262012533583821721483543613719916028086317768874090767189900000000000000000000000000000000,
  20092447353589234370958946160751119478379352124041156650190861346767571595156015394078883166094000000000000000000000000000000000,
  19652543096495018643983610875642565296780739161961206659981933360402308445920125313147535069590000000000000000000000000000000000,
  19199281505025862081638093383894653994939197240444921778486573179933853672183504052736566992360000000000000000000000000000000000,
  18732970649636977222863231120824190619510653870012694483323113644903806636370767687955900954500000000000000000000000000000000000,
  18253927470048648016840211433223366229884157298404198085606103239081804337669674116144662105000000000000000000000000000000000000,
  17762477559833242327028235218640306137893483848506405867863509393918670601001861042644969650000000000000000000000000000000000000,
  17258954945121280845789208595358496059710559922713658215930533390233421381647199296825007710000000000000000000000000000000000000,
  16743701857577268944904228251527372625530449254189382118676882768653583726841048099109095500000000000000000000000000000000000000,
  16217068501800012625594202585306731372523811888864881975654597094775776216288217109198068000000000000000000000000000000000000000,
  15679412817306104419524350335203380039482610106607836954830008411530206781218751631408683000000000000000000000000000000000000000,
  15131100235259206066793694778341803289217379997052326990955572160238545735635926922743790000000000000000000000000000000000000000,
  14572503430111715481408727261391441789498613912505899716421207038780480524743763826915700000000000000000000000000000000000000000,
  14004002066329457983319727769125348223052916268338033886449278743294020468569660336910300000000000000000000000000000000000000000,
  13425982540374306852219168979274975786916106585487042614306330206210812615266955128443000000000000000000000000000000000000000000,
  12838837718124321545610248576754253018382662887540554459308471159692141384228719396418000000000000000000000000000000000000000000,
  12242966667916449981832228594948877316653225790296145588355162745348653439582762434691000000000000000000000000000000000000000000,
  11638774389403706420644008240251212865639765160020620595831695634803271043856408914740000000000000000000000000000000000000000000,
  11026671538428158911345331994678853046502372943784771051235159734739255391245401128080000000000000000000000000000000000000000000,
  10407074148125193313706836945681332296535747919145551438874734786027035591485796486200000000000000000000000000000000000000000000,
  9780403346497527175887338528825974762838954617117715419933007086227698951058104722900000000000000000000000000000000000000000000,
  9147085070737667992262011179487291324306549741004582349581081443725027948970833853200000000000000000000000000000000000000000000,
  8507549778652352279586216895833020134360988408642497934128247563309936443294906964200000000000000000000000000000000000000000000,
  7862232157689980238179989396110914754982998014428718879449741108900799527500448067000000000000000000000000000000000000000000000,
  7211570832379638738933365086698231973875679907870905688023397514749937566074333986000000000000000000000000000000000000000000000,
  6556008071671613990395393758583156332587460684493247157703334230915340733503946466000000000000000000000000000000000000000000000,
  5895989499283734211223922979750033475613072420590113360868525056090883157297224955000000000000000000000000000000000000000000000,
  5231963814295594246505688519840845039461609812068582230127720049051087048598513206000000000000000000000000000000000000000000000,
  4564382540882116035584593259705008240073367978965712036316109402630885528706087454000000000000000000000000000000000000000000000,
  3893699862901465308274382364069200216234062679368021485541312774652298004789449624000000000000000000000000000000000000000000000,
  3220372733926267531503725768245795019913421148191723949787677844473922618458219118000000000000000000000000000000000000000000000,
  2544862054010306436240245131145719534775680994554266604821209079280778353063376228000000000000000000000000000000000000000000000,
  1867639230771965054377298672152316973350686627787857905013033937373962763116884726000000000000000000000000000000000000000000000,
  1189234327793165147933850923793043123706267052709079832174594419507048758084928831300000000000000000000000000000000000000000000,
  511026063694612117972966138624641395179715391664787980394148590407076717893247149640000000000000000000000000000000000000000000]

/-- `case 121` (Util/Gauss_Legendre_Nodes_and_Weights.hpp:35546-36088), `nodes`. -/
def nodes121 : List Int := [
  -999804129976068750662261483642887879746699994623309111986186571099498803591273916332754838161944766120924705008256041096845210700,
  -998968116332750097797644295632430738279927161572385096498946304920581161827377605581575293707398244767114115959071056451617334560,
  -997464650309389017936416293684204798489831777951251010930541987316714036054925892559701964198379738490146440258035760792725299420,
  -995294402827884517859565772049100728378896066427515868676237077070297282027423418488983144321320876304123955999451703333606102800,
  -992458783823107620834542401897440574833959861451863020201300053249579230028000617752727851221552654820609999018788604133629646380,
  -988959679217834239585844682924627994963037679115441556702831165741747604905588368963066697057155196430941518281603037730633067020,
  -984799425018521553771797934870017426787704071773112577593638897263966767401921511497906012671054788809787284625614229773034573390,
  -979980801160081695872070952015643780940259791216734875639758894700946594316938100113757262912797037973926868153106042595149450380,
  -974507028426380811368582222881708248442226679571362355656857609811893826028356626909933628665109889723864063922904549554918184840,
  -968381765890871546418747236674334236561581224451824658222915386166779615746097628496131970375275194691637510733355913795832496990,
  -961609108312365661179536309452101392532089328223606055545292993144941121251017461260155968921630244637419207676339507856823227920,
  -954193583328494642291237059498920659321039619298972708964721446455884516522632044666751694047154069968017487702504056975949599760,
  -946140148395807082145418124792964962585062256824424959590012488093292821188463411470098571599805436887759229778558775230681611110,
  -937454187458569210932978618302383953312308654725396571993612000631005026779099016337933700297183504813479553988061413140116881270,
  -928141507340163947065798388422260763459661706264677082627977586388651070259799264630288274867038423527553803551578042128670562870,
  -918208333855735377092213577603818275206617530946191166146616276695063675381798693529893329869454857915122770564705322127355160930,
  -907661307646858581939346314985126206356897518756403051887994304006652947840097595843521521352345833390495722637140936661423909650,
  -896507479740090290299776538017722630002408462422624623574575021524834107652357712606953557719670748117028528856307954775481392910,
  -884754306831871706506932713758286932231233312682820518967210392425555233194857719269927225596078225475279250597846007846134349680,
  -872409646302657643918617421018311107800209942214095049059216946320075837115233724503268133005353467471179389193314607156320099430,
  -859481750963444179895938934653358704522704198224598342441041188094271757328431918375692624557823878689512540430062924810421789440,
  -845979263538110713939971464942492932557693714806122732593249611074599058354966099198851000562450980843971819082879700296606684120,
  -831911210885205989359557523828091681771851137576697339422726749954746562914916574366718929135811752016914966811826278334758073400,
  -817286997963003685602911840324539032031357276472700192182750739724684398748603740527606546499546572743009830777033651000903843720,
  -802116401541838062690079878749335727572673385954056614455275955028786120271665953477395104977480521711489029747422018097147979870,
  -786409563667907310487298036194084168564468268334066439414727115615263094278267955571108122725981172609569606383049361513018831430,
  -770176984882903623655136296947590559312231445681166963270842913488729725779996832782231640928246429502411645182483990771327128690,
  -753429517203995638110744765879462952068450453662663146417157097563898030867110145970813207078470875389424434081531987858424216560,
  -736178356868851304225543056500278391798447502396347769792503104738572755042457328728928074268507639727788212508793270333098163210,
  -718435036850547843783397388331989851564295999810704771648653154061229197444310889208983478289152454735133840033956785618065454010,
  -700211419147370293184810403627009503937103083373045854755952045880240877653940220075568908664966593636262658572494133490367972800,
  -681519686852651332836243995174121037476335413183918944324928892695610572887693382138786638430983781378393614453274360194711671240,
  -662372336009952644672479809683201069205852205113043198177033306232020505491036918540726249920078196120648442647560127536259277290,
  -642782167259031895134632965511956434101395734887137425996207485760439389488795460778804535054168144134150118281719403115432347300,
  -622762277278179558053438381523498106080779089562621583285548152008449182345223431200582169258076664125009063788628677331210468410,
  -602326050028646106946606900483222841305285219689027705284489004562040711396343722279986443987450081307955067395922495836854680240,
  -581487147807012548363485002426204559197664955593708212964187241304819647198906869199721807115965131704748589116519386056918828470,
  -560259502111485762483169442458817106515045786732184822582860007774153374872781138681961320452334885859166478144618046354270099330,
  -538657304328224587970589980051151991288596966757130133729834897341004409073326146660181484055680911683779235627857767668838973980,
  -516694996243922958707981988024116590157901662579064258392108113432730438394502870012438612637724673777694276373387979246564174190,
  -494387260390992594803508990498107716647977969979775491295728872482507455036673240651890226511290580675005330737407592885728042110,
  -471749010231799695015385012846583284217120052102366104843081548580259997042638049791336442575761316902466621019543255583673294410,
  -448795380188517700083115791540374479966357383957417205104039906005462696139141590955931052730609815159883216224140552735071473100,
  -425541715525261426304450648646129579816260844348442172906504606220867134992532520155869218328492078988422317416627746905456326800,
  -402003562089266638367827091130431394731649302815688081204025433414889664296185193822435444881406116142293459666675879975478848570,
  -378196655917973374910162925928782382417827332327424959747309538883699581152558316843291403125376534047502775218400845945007775350,
  -354136912718960997256488564405378675472815942973830353373850130682798917871298324355352449096215746044006492893550745458072487940,
  -329840417229767941931211967829281784608824619617696324655857982815717283904501541066174296076473186474047077449193515297724307400,
  -305323412464709464401526064859018400707138047596490415366940252302673034393244178649067657529321149173657846750780301216064357090,
  -280602288855882211755777959792305604783216232363388460309970735776117579912337955968036271268773746851557893941360690165556605250,
  -255693573295615205372281825350454686421159754952831364915172796720372041098108194759200533743275641691190668488735130448552414550,
  -230613918087692703992691933088934302578974246154028885730678274214545587541046983618050075261727231110629143522418637198838026830,
  -205380089814735409076391831005822381296723651280096942156265677064737294589969687631742358681655141946663445769009823948874730830,
  -180008958129182527217809737989911017010631637448545344577607306441010114295776371768876690837134948251476666508198597717935157440,
  -154517484475368281373027543423330621295427133667038484563631350204033356199862974149712558278863218457712724112612163644433053220,
  -128922710750232529588586711425184356851620993869066922979712811832859014140259338191767587143550955964278804863364515281809840400,
  -103241747910246176111357310214404784919007134501975953453550607122424505847405955854724947734081936374718602743515160602025320980,
  -77491764532168017799154053349231490484273173921398936623562501528413576840097340142477310390272875604051600880661025262247650255,
  -51689975335280534641733840949033672306719399444936162497668779139322708772930743213892540739880872161674777979971371432650030091,
  -25853629672777886331934362814913268471186494170744792787065939299242249904265110617334014966034905768942871176849618477179041704,
  0,
  25853629672777886331934362814913268471186494170744792787065939299242249904265110617334014966034905768942871176849618477179041704,
  51689975335280534641733840949033672306719399444936162497668779139322708772930743213892540739880872161674777979971371432650030091,
  77491764532168017799154053349231490484273173921398936623562501528413576840097340142477310390272875604051600880661025262247650255,
  103241747910246176111357310214404784919007134501975953453550607122424505847405955854724947734081936374718602743515160602025320980,
  128922710750232529588586711425184356851620993869066922979712811832859014140259338191767587143550955964278804863364515281809840400,
  154517484475368281373027543423330621295427133667038484563631350204033356199862974149712558278863218457712724112612163644433053220,
  180008958129182527217809737989911017010631637448545344577607306441010114295776371768876690837134948251476666508198597717935157440,
  205380089814735409076391831005822381296723651280096942156265677064737294589969687631742358681655141946663445769009823948874730830,
  230613918087692703992691933088934302578974246154028885730678274214545587541046983618050075261727231110629143522418637198838026830,
  255693573295615205372281825350454686421159754952831364915172796720372041098108194759200533743275641691190668488735130448552414550,
  280602288855882211755777959792305604783216232363388460309970735776117579912337955968036271268773746851557893941360690165556605250,
  305323412464709464401526064859018400707138047596490415366940252302673034393244178649067657529321149173657846750780301216064357090,
  329840417229767941931211967829281784608824619617696324655857982815717283904501541066174296076473186474047077449193515297724307400,
  354136912718960997256488564405378675472815942973830353373850130682798917871298324355352449096215746044006492893550745458072487940,
  378196655917973374910162925928782382417827332327424959747309538883699581152558316843291403125376534047502775218400845945007775350,
  402003562089266638367827091130431394731649302815688081204025433414889664296185193822435444881406116142293459666675879975478848570,
  425541715525261426304450648646129579816260844348442172906504606220867134992532520155869218328492078988422317416627746905456326800,
  448795380188517700083115791540374479966357383957417205104039906005462696139141590955931052730609815159883216224140552735071473100,
  471749010231799695015385012846583284217120052102366104843081548580259997042638049791336442575761316902466621019543255583673294410,
  494387260390992594803508990498107716647977969979775491295728872482507455036673240651890226511290580675005330737407592885728042110,
  516694996243922958707981988024116590157901662579064258392108113432730438394502870012438612637724673777694276373387979246564174190,
  538657304328224587970589980051151991288596966757130133729834897341004409073326146660181484055680911683779235627857767668838973980,
  560259502111485762483169442458817106515045786732184822582860007774153374872781138681961320452334885859166478144618046354270099330,
  581487147807012548363485002426204559197664955593708212964187241304819647198906869199721807115965131704748589116519386056918828470,
  602326050028646106946606900483222841305285219689027705284489004562040711396343722279986443987450081307955067395922495836854680240,
  622762277278179558053438381523498106080779089562621583285548152008449182345223431200582169258076664125009063788628677331210468410,
  642782167259031895134632965511956434101395734887137425996207485760439389488795460778804535054168144134150118281719403115432347300,
  662372336009952644672479809683201069205852205113043198177033306232020505491036918540726249920078196120648442647560127536259277290,
  681519686852651332836243995174121037476335413183918944324928892695610572887693382138786638430983781378393614453274360194711671240,
  700211419147370293184810403627009503937103083373045854755952045880240877653940220075568908664966593636262658572494133490367972800,
  718435036850547843783397388331989851564295999810704771648653154061229197444310889208983478289152454735133840033956785618065454010,
  736178356868851304225543056500278391798447502396347769792503104738572755042457328728928074268507639727788212508793270333098163210,
  753429517203995638110744765879462952068450453662663146417157097563898030867110145970813207078470875389424434081531987858424216560,
  770176984882903623655136296947590559312231445681166963270842913488729725779996832782231640928246429502411645182483990771327128690,
  786409563667907310487298036194084168564468268334066439414727115615263094278267955571108122725981172609569606383049361513018831430,
  802116401541838062690079878749335727572673385954056614455275955028786120271665953477395104977480521711489029747422018097147979870,
  817286997963003685602911840324539032031357276472700192182750739724684398748603740527606546499546572743009830777033651000903843720,
  831911210885205989359557523828091681771851137576697339422726749954746562914916574366718929135811752016914966811826278334758073400,
  845979263538110713939971464942492932557693714806122732593249611074599058354966099198851000562450980843971819082879700296606684120,
  859481750963444179895938934653358704522704198224598342441041188094271757328431918375692624557823878689512540430062924810421789440,
  872409646302657643918617421018311107800209942214095049059216946320075837115233724503268133005353467471179389193314607156320099430,
  884754306831871706506932713758286932231233312682820518967210392425555233194857719269927225596078225475279250597846007846134349680,
  896507479740090290299776538017722630002408462422624623574575021524834107652357712606953557719670748117028528856307954775481392910,
  907661307646858581939346314985126206356897518756403051887994304006652947840097595843521521352345833390495722637140936661423909650,
  918208333855735377092213577603818275206617530946191166146616276695063675381798693529893329869454857915122770564705322127355160930,
  928141507340163947065798388422260763459661706264677082627977586388651070259799264630288274867038423527553803551578042128670562870,
  937454187458569210932978618302383953312308654725396571993612000631005026779099016337933700297183504813479553988061413140116881270,
  946140148395807082145418124792964962585062256824424959590012488093292821188463411470098571599805436887759229778558775230681611110,
  954193583328494642291237059498920659321039619298972708964721446455884516522632044666751694047154069968017487702504056975949599760,
  961609108312365661179536309452101392532089328223606055545292993144941121251017461260155968921630244637419207676339507856823227920,
  968381765890871546418747236674334236561581224451824658222915386166779615746097628496131970375275194691637510733355913795832496990,
  974507028426380811368582222881708248442226679571362355656857609811893826028356626909933628665109889723864063922904549554918184840,
  979980801160081695872070952015643780940259791216734875639758894700946594316938100113757262912797037973926868153106042595149450380,
  984799425018521553771797934870017426787704071773112577593638897263966767401921511497906012671054788809787284625614229773034573390,
  988959679217834239585844682924627994963037679115441556702831165741747604905588368963066697057155196430941518281603037730633067020,
  992458783823107620834542401897440574833959861451863020201300053249579230028000617752727851221552654820609999018788604133629646380,
  995294402827884517859565772049100728378896066427515868676237077070297282027423418488983144321320876304123955999451703333606102800,
  997464650309389017936416293684204798489831777951251010930541987316714036054925892559701964198379738490146440258035760792725299420,
  998968116332750097797644295632430738279927161572385096498946304920581161827377605581575293707398244767114115959071056451617334560,
  999804129976068750662261483642887879746699994623309111986186571099498803591273916332754838161944766120924705008256041096845210700]

/-- `case 121` (Util/Gauss_Legendre_Nodes_and_Weights.hpp:35546-36088), `weights`. -/
def weights121 : List Nat := [
  502649323393766167452124701125441946274547716121363308952683364165572878195092634500000000000000000000000000000000000000000000,
  1169745831043723218068513183899011372759620968131288546669565547880126921648609390000000000000000000000000000000000000000000000,
  1837048780102251895004528463594651045444416371239343621918110856777514972285390935000000000000000000000000000000000000000000000,
  2503209476498750871851888915856505845418938863123337224311708540282556363551330337000000000000000000000000000000000000000000000,
  3167713941363928881738527321916616386067434598280017901519334095369218957577241000000000000000000000000000000000000000000000000,
  3830105852648933462088090469021771727857428309509448632118141908232704282792539760000000000000000000000000000000000000000000000,
  4489939176093850597766690779138749736647096813639732953018321117698137799669984370000000000000000000000000000000000000000000000,
  5146771701801193134108342556709422162348565946116146428151022477029403657106640090000000000000000000000000000000000000000000000,
  5800163876916462876802967475617634202495569486592256069345322409307596366731737520000000000000000000000000000000000000000000000,
  6449678687624708682162222944026377141538863838287959850551782287934207754040090207000000000000000000000000000000000000000000000,
  7094881812152880422905196901091823268245005119110440983053214682759250867953623200000000000000000000000000000000000000000000000,
  7735341857323310108710805786297888024898423684322750712775453937736566435687940890000000000000000000000000000000000000000000000,
  8370630623866433696112381592917672104125458775013047526827234585717210587975090346000000000000000000000000000000000000000000000,
  9000323381920676445256249699220111072873354216939536791473453610258872243156099763000000000000000000000000000000000000000000000,
  9623999149605754804857487703284892795052332941748603846107217541092812044620222215500000000000000000000000000000000000000000000,
  10241240971625422329547159238034163421251638488656148703702222815297653211398216838100000000000000000000000000000000000000000000,
  10851636196443545922231282914235188735256213248280599787345753521921190502207171818700000000000000000000000000000000000000000000,
  11454776751247416016063347257665174660060276104930470767339089795031814938333529480580000000000000000000000000000000000000000000,
  12050259414214599423298959561718436960606956769132100631650595553891513918725043304140000000000000000000000000000000000000000000,
  12637686083744565407142343801225753817393557131509135163686393672868830316738510573349000000000000000000000000000000000000000000,
  13216664044389783591429300258115277575270875376951928360192483556636447050065506436509000000000000000000000000000000000000000000,
  13786806229260399257039454829260315070885159341122569351277456730346856378942520585406000000000000000000000000000000000000000000,
  14347731478699057888666504117562979509735739670172230417743078165318403272258685280558300000000000000000000000000000000000000000,
  14899064795036181633923104645194796201955946899284020544963513453481662629475972667041890000000000000000000000000000000000000000,
  15440437593245090167693903475417206395329998614100436652620505421459014424181237869960760000000000000000000000000000000000000000,
  15971487947322925460888386348234434022288902883339508052050610654465202634943812873181511000000000000000000000000000000000000000,
  16491860832228515666381434026017471984561923980932796205781737076938549972181800099865667000000000000000000000000000000000000000,
  17001208361212719856121401383733326209246902308150252831046730473650384369851163708060768000000000000000000000000000000000000000,
  17499190018380783555600803153437522606685488323877630752983656303891052953416541725064503460000000000000000000000000000000000000,
  17985472886330007333199972227803172070743481046661203072681367084942781144083256780586017170000000000000000000000000000000000000,
  18459731868709706135862786888103472899316321391055551967219280346465294026736480237793455015000000000000000000000000000000000000,
  18921649907554086698143850336211719132425586374619890666403052588858663908237434747832770076500000000000000000000000000000000000,
  19370918195242337092275579208152798692479795150251056422206093588289619067529152337742975032950000000000000000000000000000000000,
  19807236380943932336789995047506506968721536015598488043028603010512904462353207308973716891812000000000000000000000000000000000,
  20230312771410928612124697925511224849047451361342979748225086809390514208248336210659203118932700000000000000000000000000000000,
  20639864525982855280916475825648781339606838786796584283468473738503501259480590609464969996505820000000000000000000000000000000,
  21035617845673723737286135998512664775069157379637498915876654180060415168547908182144043098001130000000000000000000000000000000,
  21417308156214657641855362567591598932168239466787501885207921109928269992642145688742956153223270000000000000000000000000000000,
  21784680284929711139733958243530939947568843340275478300565474770170390042836082248835887589538710500000000000000000000000000000,
  22137488631326579856307548069249596661751845648918596063546895050688293099739127121158683573194973060000000000000000000000000000,
  22475497331288122684691839839718457588263217865128361231689011521280413559469350289434769076829310688000000000000000000000000000,
  22798480414754898939121421431249481394759492324070650278084130610164845457542668452359518171579918143990000000000000000000000000,
  23106221956793283284579956640454165694329217874761687128659092082519484167422296838524508085757038069317000000000000000000000000,
  23398516221948147619635476965179307145214623963816091884537016999314953250846358890785962696187386861005800000000000000000000000,
  23675167801783592234644969286075919009839991852716290788213724861947828340357036514918812781399796562894610000000000000000000000,
  23935991745519765381875469156523787126004692157933742018011016026519584801304349764523078159684466604478826000000000000000000000,
  24180813683678428045826821080128728166540396380184464264832773650801671621213081649681810377995727521690313700000000000000000000,
  24409469944654596261615720608545366834520542514226677792467213943445589022353540695400759322280263264345130035000000000000000000,
  24621807664136323787444102657743374669817904482779729602680190438286675871325396797213227755143414552830019493000000000000000000,
  24817684887299470218249816910332297345006749405861703482469990082904827277476199104766563714042456333474276693670000000000000000,
  24996970663709130599597873365357269968948845231375711968990708924356664666671080252689338698715887606854144732358000000000000000,
  25159545134864279083186548124596350197678762281293829871987278296337887005000474588692234660506121138377111965745360000000000000,
  25305299614327097935258524188886231359438291548032940386275256454396894772703785420033821072822187034106582270387964000000000000,
  25434136660383421006914660181039637539266617069639772005232837506058323409528893041597945857976951405156105201155607600000000000,
  25545970141185714308356246947914433925549651104852831337919190404751313592656127210807656601706613671848525947179663906000000000,
  25640725292335042276129530854779252177720844004130425493048337618769630936055537750940706728933360661629992692041231147300000000,
  25718338766863523336814032306422973901472743092054990794696440729385374321980471137887510731734192326375953275120150428048000000,
  25778758677583859083329683092143015080531813266071491132865033375810333808883360461544502378548723208066947980840800466643000000,
  25821944631777624402865789237677703340323289434530868472664212090689426519947982423470586185219325353811025052616169559732478000,
  25847867758199127823556380014929232873952367468250772655767090444964142290295742095879386726741365929960845057154167689535552800,
  25856510726376788761790742537819844778688427855454070842608315004086320441642398432990944822969507472614913290748177760542467740,
  25847867758199127823556380014929232873952367468250772655767090444964142290295742095879386726741365929960845057154167689535552800,
  25821944631777624402865789237677703340323289434530868472664212090689426519947982423470586185219325353811025052616169559732478000,
  25778758677583859083329683092143015080531813266071491132865033375810333808883360461544502378548723208066947980840800466643000000,
  25718338766863523336814032306422973901472743092054990794696440729385374321980471137887510731734192326375953275120150428048000000,
  25640725292335042276129530854779252177720844004130425493048337618769630936055537750940706728933360661629992692041231147300000000,
  25545970141185714308356246947914433925549651104852831337919190404751313592656127210807656601706613671848525947179663906000000000,
  25434136660383421006914660181039637539266617069639772005232837506058323409528893041597945857976951405156105201155607600000000000,
  25305299614327097935258524188886231359438291548032940386275256454396894772703785420033821072822187034106582270387964000000000000,
  25159545134864279083186548124596350197678762281293829871987278296337887005000474588692234660506121138377111965745360000000000000,
  24996970663709130599597873365357269968948845231375711968990708924356664666671080252689338698715887606854144732358000000000000000,
  24817684887299470218249816910332297345006749405861703482469990082904827277476199104766563714042456333474276693670000000000000000,
  24621807664136323787444102657743374669817904482779729602680190438286675871325396797213227755143414552830019493000000000000000000,
  24409469944654596261615720608545366834520542514226677792467213943445589022353540695400759322280263264345130035000000000000000000,
  24180813683678428045826821080128728166540396380184464264832773650801671621213081649681810377995727521690313700000000000000000000,
  23935991745519765381875469156523787126004692157933742018011016026519584801304349764523078159684466604478826000000000000000000000,
  23675167801783592234644969286075919009839991852716290788213724861947828340357036514918812781399796562894610000000000000000000000,
  23398516221948147619635476965179307145214623963816091884537016999314953250846358890785962696187386861005800000000000000000000000,
  23106221956793283284579956640454165694329217874761687128659092082519484167422296838524508085757038069317000000000000000000000000,
  22798480414754898939121421431249481394759492324070650278084130610164845457542668452359518171579918143990000000000000000000000000,
  22475497331288122684691839839718457588263217865128361231689011521280413559469350289434769076829310688000000000000000000000000000,
  22137488631326579856307548069249596661751845648918596063546895050688293099739127121158683573194973060000000000000000000000000000,
  21784680284929711139733958243530939947568843340275478300565474770170390042836082248835887589538710500000000000000000000000000000,
  21417308156214657641855362567591598932168239466787501885207921109928269992642145688742956153223270000000000000000000000000000000,
  21035617845673723737286135998512664775069157379637498915876654180060415168547908182144043098001130000000000000000000000000000000,
  20639864525982855280916475825648781339606838786796584283468473738503501259480590609464969996505820000000000000000000000000000000,
  20230312771410928612124697925511224849047451361342979748225086809390514208248336210659203118932700000000000000000000000000000000,
  19807236380943932336789995047506506968721536015598488043028603010512904462353207308973716891812000000000000000000000000000000000,
  19370918195242337092275579208152798692479795150251056422206093588289619067529152337742975032950000000000000000000000000000000000,
  18921649907554086698143850336211719132425586374619890666403052588858663908237434747832770076500000000000000000000000000000000000,
  18459731868709706135862786888103472899316321391055551967219280346465294026736480237793455015000000000000000000000000000000000000,
  17985472886330007333199972227803172070743481046661203072681367084942781144083256780586017170000000000000000000000000000000000000,
  17499190018380783555600803153437522606685488323877630752983656303891052953416541725064503460000000000000000000000000000000000000,
  17001208361212719856121401383733326209246902308150252831046730473650384369851163708060768000000000000000000000000000000000000000,
  16491860832228515666381434026017471984561923980932796205781737076938549972181800099865667000000000000000000000000000000000000000,
  15971487947322925460888386348234434022288902883339508052050610654465202634943812873181511000000000000000000000000000000000000000,
  15440437593245090167693903475417206395329998614100436652620505421459014424181237869960760000000000000000000000000000000000000000,
  14899064795036181633923104645194796201955946899284020544963513453481662629475972667041890000000000000000000000000000000000000000,
  14347731478699057888666504117562979509735739670172230417743078165318403272258685280558300000000000000000000000000000000000000000,
  13786806229260399257039454829260315070885159341122569351277456730346856378942520585406000000000000000000000000000000000000000000,
  13216664044389783591429300258115277575270875376951928360192483556636447050065506436509000000000000000000000000000000000000000000,
  12637686083744565407142343801225753817393557131509135163686393672868830316738510573349000000000000000000000000000000000000000000,
  12050259414214599423298959561718436960606956769132100631650595553891513918725043304140000000000000000000000000000000000000000000,
  11454776751247416016063347257665174660060276104930470767339089795031814938333529480580000000000000000000000000000000000000000000,
  10851636196443545922231282914235188735256213248280599787345753521921190502207171818700000000000000000000000000000000000000000000,
  10241240971625422329547159238034163421251638488656148703702222815297653211398216838100000000000000000000000000000000000000000000,
  9623999149605754804857487703284892795052332941748603846107217541092812044620222215500000000000000000000000000000000000000000000,
  9000323381920676445256249699220111072873354216939536791473453610258872243156099763000000000000000000000000000000000000000000000,
  8370630623866433696112381592917672104125458775013047526827234585717210587975090346000000000000000000000000000000000000000000000,
  7735341857323310108710805786297888024898423684322750712775453937736566435687940890000000000000000000000000000000000000000000000,
  7094881812152880422905196901091823268245005119110440983053214682759250867953623200000000000000000000000000000000000000000000000,
  6449678687624708682162222944026377141538863838287959850551782287934207754040090207000000000000000000000000000000000000000000000,
  5800163876916462876802967475617634202495569486592256069345322409307596366731737520000000000000000000000000000000000000000000000,
  5146771701801193134108342556709422162348565946116146428151022477029403657106640090000000000000000000000000000000000000000000000,
  4489939176093850597766690779138749736647096813639732953018321117698137799669984370000000000000000000000000000000000000000000000,
  3830105852648933462088090469021771727857428309509448632118141908232704282792539760000000000000000000000000000000000000000000000,
  3167713941363928881738527321916616386067434598280017901519334095369218957577241000000000000000000000000000000000000000000000000,
  2503209476498750871851888915856505845418938863123337224311708540282556363551330337000000000000000000000000000000000000000000000,
  1837048780102251895004528463594651045444416371239343621918110856777514972285390935000000000000000000000000000000000000000000000,
  1169745831043723218068513183899011372759620968131288546669565547880126921648609390000000000000000000000000000000000000000000000,
  502649323393766167452124701125441946274547716121363308952683364165572878195092634500000000000000000000000000000000000000000000]

/-- `case 122` (Util/Gauss_Legendre_Nodes_and_Weights.hpp:36090-36636), `nodes`. -/
def nodes122 : List Int := [
  -999807314681479263157588438220836584819927174127112577545025442015619290841319337735902749384910400728650281615254784907136402060,
  -998984891717041268060230639166261906556952520737609396951275121895636142407847747445188685716379687147440850374621752784852942920,
  -997505857446567397643913917859874469590051112930366290298348446265807852448692338424960725031026437646384770393784596123074439210,
  -995370855816848101650822653157110773942420354019362897600825132505755637060416544547215755327639453679173176953276427536236672020,
  -992581250659068598765867566328887573473445214306679423005665959605515020456618352261079811453616357874657935432922155977021689560,
  -989138866971306673765137456681137916395592734572960536283422781839711290377157804945601231287671556592273505882627122198861216670,
  -985045965475687763273937664990878221138376943588109319074749185499776650369163969836582531676359283974627909113023113271859098350,
  -980305236612788785782412652091069088825396539635602093517215831344084869512099458013385565349048342914509218890978086862935359290,
  -974919797571079755802001310225224448359419565428581825421369821342399298525813744324591831988495220742752166440430274422321172340,
  -968893189837307147234215540332963608638184752932156361573871687781694807821292510341826246243947832855716574868069323497583465590,
  -962229376711944803990253805603645995090390943493996719887205090724081840408990828641545518808489585819497087639246652327747675470,
  -954932740634743468542849930646128482262598007194892221558293678743214209512722285879620706306916985682205707093198180449019847180,
  -947008080270071673523312452915764659540401600033537682114393221819292928330361750515936203697469044935538441892874188937351903200,
  -938460607334310822022427420788291380518930842244488800588364639953331967816270533292255995895404667697707403759334920171802099830,
  -929295943159194967523060192748545744759070129704426833370306932436430539452534116075068047081722539893766965945269718810806282400,
  -919520114989651228907448257629515208049003036343967968235202576745965713753013134338998457788032254211824751401367342161965351590,
  -909139552016786338959789072094769655425147703071324341712606627343076829529325555853099259939709695888400187458785804554088443050,
  -898161081147714248174102622992616650250396675445759152273375850069943608898612637727603513786880763348854222580050217752958830620,
  -886591922514517021938389011267641979729668728455427060112890385895709497318321718782642569626616453041742254736400938273132706420,
  -874439684725019090471324484842908302162733093175428849349671568573088081677634320144026591733627608980734004778223664086771804380,
  -861712359858339866614272107086579346411876984274096916704871952831355452332542615725544000973041453410688178947506545136086642630,
  -848418318208421305576682428586584020691808092937959304095099050801404138757050994156455439184318556915450422919995163711341103920,
  -834566302778929185909821640056083520125526446965702607877719778949369316987730072134684699909016898721098541976149243392079150660,
  -820165423533111903214877715012469573539409187182005244062358751103570266820938118487694573913454934443484547828189052345578937330,
  -805225151402374748962651821610156611234465434487995854240352514511057040387584872617144484160062997744189832423933710211614925230,
  -789755312057494416244710920991151263461754833417811641807495870484147935654096733612923007728484102571086738699655012723657613390,
  -773766079446559707939386447307680243914375308180361107857552710744771905676631753608221078729097466469466944650944551595234268010,
  -757267969103881160325028416761500637328140812254951717755478429971079588490639719236863454055276211956864280441011796040453665460,
  -740271831234265111132798714843647590514803919362214900414638767152997785506585920928038526236386796787732548145406407472218626500,
  -722788843577196944748277384085375792110889455997890978797815761284457000501275034932785647630932088862671044859226815114075447590,
  -704830504055623993665268473723193692196621531155362316991113651726138668666257597277544665267983490155884559548132423231247445970,
  -686408623214170927733959687045653779790151331040107682262683124757919742646915793138661656657260267857757605580899434247827391880,
  -667535316451759429558876159573747550607397689853643124931624300959588186116244843036118188446879689666355795117979719003727484700,
  -648222996053739510542001760858335980734131422198444998710255908534037374793436736837480359455045231205220770668528985152103784300,
  -628484363028771922212923166541497331960490423917096935944815561285909373413377571935421194562206545332643489192736150235004211960,
  -608332398755829704128204762286585498459288772882900946176314500786148036550100409029601821103783551071985669605784386164382012860,
  -587780356446811918122494569305757592307335264509900554496791074774722879077626102930333666161185366596404950364299058993864742120,
  -566841752430383980537917052435981526529987310351826944489323974600297548048478745620073788163843563040281068522627928458838568170,
  -545530357262776648952296549784629955142813224477298969268249058497181472914746735957220585868190640943302112166012009954321158100,
  -523860186671389577190520615248383785564299885846661500204144732642937468527367054491056130244262531640403288960307326716827136110,
  -501845492337155351906679545381290060630844836842208310649167151648900602748730163923775466525261444815690579719924102772115227860,
  -479500752521725996829041778377921439758077365447096731490662028016920212620116404672523377506915008349320326715803631561459505150,
  -456840662545646009567414289929579283495263004740693267088961075924073426175214527089173000721141920946096630262245353328787688320,
  -433880125123774015355699009129429644064982141778992209497399892709639729380302257645292233759799076581164062870138646173196525730,
  -410634240564309019098744114404902649449985214002347347016481557577231888966044680687805025167548583429777760633004605196249753880,
  -387118296837866950838436767647503405547770810299668027487876339359755299567602427143535019786521411770727135477708863800200990920,
  -363347759523138671979002034274441750427621829637558636934272314143803991827305468075554611468545018693440140014461348078833321580,
  -339338261635741784653334358380548283874317425866125835109110143742295608367324480319858511122067377865512422596966334578030101150,
  -315105593346955411500988962490442191774861632751230954255794516199573752121527690283430115248524125994894098777506925639564516510,
  -290665691599099537656032035467851649461619983643222108894575536693330885854012275946981898213809425816364674734896627442555674470,
  -266034629624388483520952023564074636590914127895651504193214449442107821176926532534398534386546941551943528059529920447291050490,
  -241228606374151561412293705621522706854429377775589217326427862342982238176013472232018876488960115019168144840225620861000234150,
  -216263935865372919797799675150214970359552260778235809115949003225805059277796869115022411840139790222007029900517725638993211980,
  -191157036451556956946433543462551282223797766386458740780776742510283684821744768306226402796992938887188993442419307731000763950,
  -165924420024975455707037197673736550080043432495124684772936055325650890055954696194728084582904857100279013047961907642109600350,
  -140582681157397720155469519339900531162767415630978084296514953121806640856892798087145769628370954362406934302463435305541263100,
  -115148486186445453378144712561669246034155650634743477711680415732743011645715238320514161270284976674950279539639219857049074700,
  -89638562254749877126216287478734068973054528355382771411857608719950956637794434474830012642074578895089687636541871222362690857,
  -64069686309119634993447653931456580133338662115933618866944857034174450932974087243241936603286724025237477090640396998612896024,
  -38458674066954320753503566537612171534971788344547621405566928964893678834172232267239508179204033731208014260969872407757179153,
  -12822368957160015262448578905585254034268276582779020956671919539631274649795926834853998827422979859744454394076681378260658911,
  12822368957160015262448578905585254034268276582779020956671919539631274649795926834853998827422979859744454394076681378260658911,
  38458674066954320753503566537612171534971788344547621405566928964893678834172232267239508179204033731208014260969872407757179153,
  64069686309119634993447653931456580133338662115933618866944857034174450932974087243241936603286724025237477090640396998612896024,
  89638562254749877126216287478734068973054528355382771411857608719950956637794434474830012642074578895089687636541871222362690857,
  115148486186445453378144712561669246034155650634743477711680415732743011645715238320514161270284976674950279539639219857049074700,
  140582681157397720155469519339900531162767415630978084296514953121806640856892798087145769628370954362406934302463435305541263100,
  165924420024975455707037197673736550080043432495124684772936055325650890055954696194728084582904857100279013047961907642109600350,
  191157036451556956946433543462551282223797766386458740780776742510283684821744768306226402796992938887188993442419307731000763950,
  216263935865372919797799675150214970359552260778235809115949003225805059277796869115022411840139790222007029900517725638993211980,
  241228606374151561412293705621522706854429377775589217326427862342982238176013472232018876488960115019168144840225620861000234150,
  266034629624388483520952023564074636590914127895651504193214449442107821176926532534398534386546941551943528059529920447291050490,
  290665691599099537656032035467851649461619983643222108894575536693330885854012275946981898213809425816364674734896627442555674470,
  315105593346955411500988962490442191774861632751230954255794516199573752121527690283430115248524125994894098777506925639564516510,
  339338261635741784653334358380548283874317425866125835109110143742295608367324480319858511122067377865512422596966334578030101150,
  363347759523138671979002034274441750427621829637558636934272314143803991827305468075554611468545018693440140014461348078833321580,
  387118296837866950838436767647503405547770810299668027487876339359755299567602427143535019786521411770727135477708863800200990920,
  410634240564309019098744114404902649449985214002347347016481557577231888966044680687805025167548583429777760633004605196249753880,
  433880125123774015355699009129429644064982141778992209497399892709639729380302257645292233759799076581164062870138646173196525730,
  456840662545646009567414289929579283495263004740693267088961075924073426175214527089173000721141920946096630262245353328787688320,
  479500752521725996829041778377921439758077365447096731490662028016920212620116404672523377506915008349320326715803631561459505150,
  501845492337155351906679545381290060630844836842208310649167151648900602748730163923775466525261444815690579719924102772115227860,
  523860186671389577190520615248383785564299885846661500204144732642937468527367054491056130244262531640403288960307326716827136110,
  545530357262776648952296549784629955142813224477298969268249058497181472914746735957220585868190640943302112166012009954321158100,
  566841752430383980537917052435981526529987310351826944489323974600297548048478745620073788163843563040281068522627928458838568170,
  587780356446811918122494569305757592307335264509900554496791074774722879077626102930333666161185366596404950364299058993864742120,
  608332398755829704128204762286585498459288772882900946176314500786148036550100409029601821103783551071985669605784386164382012860,
  628484363028771922212923166541497331960490423917096935944815561285909373413377571935421194562206545332643489192736150235004211960,
  648222996053739510542001760858335980734131422198444998710255908534037374793436736837480359455045231205220770668528985152103784300,
  667535316451759429558876159573747550607397689853643124931624300959588186116244843036118188446879689666355795117979719003727484700,
  686408623214170927733959687045653779790151331040107682262683124757919742646915793138661656657260267857757605580899434247827391880,
  704830504055623993665268473723193692196621531155362316991113651726138668666257597277544665267983490155884559548132423231247445970,
  722788843577196944748277384085375792110889455997890978797815761284457000501275034932785647630932088862671044859226815114075447590,
  740271831234265111132798714843647590514803919362214900414638767152997785506585920928038526236386796787732548145406407472218626500,
  757267969103881160325028416761500637328140812254951717755478429971079588490639719236863454055276211956864280441011796040453665460,
  773766079446559707939386447307680243914375308180361107857552710744771905676631753608221078729097466469466944650944551595234268010,
  789755312057494416244710920991151263461754833417811641807495870484147935654096733612923007728484102571086738699655012723657613390,
  805225151402374748962651821610156611234465434487995854240352514511057040387584872617144484160062997744189832423933710211614925230,
  820165423533111903214877715012469573539409187182005244062358751103570266820938118487694573913454934443484547828189052345578937330,
  834566302778929185909821640056083520125526446965702607877719778949369316987730072134684699909016898721098541976149243392079150660,
  848418318208421305576682428586584020691808092937959304095099050801404138757050994156455439184318556915450422919995163711341103920,
  861712359858339866614272107086579346411876984274096916704871952831355452332542615725544000973041453410688178947506545136086642630,
  874439684725019090471324484842908302162733093175428849349671568573088081677634320144026591733627608980734004778223664086771804380,
  886591922514517021938389011267641979729668728455427060112890385895709497318321718782642569626616453041742254736400938273132706420,
  898161081147714248174102622992616650250396675445759152273375850069943608898612637727603513786880763348854222580050217752958830620,
  909139552016786338959789072094769655425147703071324341712606627343076829529325555853099259939709695888400187458785804554088443050,
  919520114989651228907448257629515208049003036343967968235202576745965713753013134338998457788032254211824751401367342161965351590,
  929295943159194967523060192748545744759070129704426833370306932436430539452534116075068047081722539893766965945269718810806282400,
  938460607334310822022427420788291380518930842244488800588364639953331967816270533292255995895404667697707403759334920171802099830,
  947008080270071673523312452915764659540401600033537682114393221819292928330361750515936203697469044935538441892874188937351903200,
  954932740634743468542849930646128482262598007194892221558293678743214209512722285879620706306916985682205707093198180449019847180,
  962229376711944803990253805603645995090390943493996719887205090724081840408990828641545518808489585819497087639246652327747675470,
  968893189837307147234215540332963608638184752932156361573871687781694807821292510341826246243947832855716574868069323497583465590,
  974919797571079755802001310225224448359419565428581825421369821342399298525813744324591831988495220742752166440430274422321172340,
  980305236612788785782412652091069088825396539635602093517215831344084869512099458013385565349048342914509218890978086862935359290,
  985045965475687763273937664990878221138376943588109319074749185499776650369163969836582531676359283974627909113023113271859098350,
  989138866971306673765137456681137916395592734572960536283422781839711290377157804945601231287671556592273505882627122198861216670,
  992581250659068598765867566328887573473445214306679423005665959605515020456618352261079811453616357874657935432922155977021689560,
  995370855816848101650822653157110773942420354019362897600825132505755637060416544547215755327639453679173176953276427536236672020,
  997505857446567397643913917859874469590051112930366290298348446265807852448692338424960725031026437646384770393784596123074439210,
  998984891717041268060230639166261906556952520737609396951275121895636142407847747445188685716379687147440850374621752784852942920,
  999807314681479263157588438220836584819927174127112577545025442015619290841319337735902749384910400728650281615254784907136402060]

/-- `case 122` (Util/Gauss_Legendre_Nodes_and_Weights.hpp:36090-36636), `weights`. -/
def weights122 : List Nat := [
  494476870185165060900089258054711478227819067933371310145208799166427190983240022500000000000000000000000000000000000000000000,
  1150732433894679893618357316078569793097461807129486542749129300757553939235529545000000000000000000000000000000000000000000000,
  1807203584188406226377336992557399109803633907728919171017211130708592346064130970000000000000000000000000000000000000000000000,
  2462570681225488728987282182496097196599674824577555960032347298466596233583742580000000000000000000000000000000000000000000000,
  3116335201838604294856675239936572800924538842608936033590481409820773509374407850000000000000000000000000000000000000000000000,
  3768055306701194160012979702835689980009450997957308578066262439002966112113404630000000000000000000000000000000000000000000000,
  4417299232128556961006435804609928549761529046727873763041450582910582142932244620000000000000000000000000000000000000000000000,
  5063638922397448573503334847521315220689518769605380506979364173363299773942472310000000000000000000000000000000000000000000000,
  5706648872110883426608036097541452312992465680654916551363308575164783884652644830000000000000000000000000000000000000000000000,
  6345906000880018219390583979024621369498109769111496293742560898904836798975815050000000000000000000000000000000000000000000000,
  6980989794677642254265533992554094111752439266535117548209267452929282260154664990000000000000000000000000000000000000000000000,
  7611482529465816027371512918926513555160237410035598568645802255975923034743459677000000000000000000000000000000000000000000000,
  8236969523205778446537753351545541572786076361454611063593586968568219322696815852000000000000000000000000000000000000000000000,
  8857039397989028010329721002146343956072118628596641570542885294192002937967430544000000000000000000000000000000000000000000000,
  9471284345300409439007844777588141100239564313319808447837986640822720954217607688000000000000000000000000000000000000000000000,
  10079300391427539913134143667177073775294710227045517377908643192912626282324255764700000000000000000000000000000000000000000000,
  10680687661592844859917320505551263444879579252501123852375502504253457525307064957300000000000000000000000000000000000000000000,
  11275050642043484185507044449963138199455009744044127616397985188303105976247794608000000000000000000000000000000000000000000000,
  11861998439631818442066083542100771673263338855800716801797886262335599523123934828940000000000000000000000000000000000000000000,
  12441145038561502906103027948189365458039475942798255193870524022532685804613247418090000000000000000000000000000000000000000000,
  13012109554046436681897270723404824214236834468827450237654986596199700240436833567484000000000000000000000000000000000000000000,
  13574516482668418471747287012287854626228084586782489041228583600142199994751557038966000000000000000000000000000000000000000000,
  14127995949241312811402600913624507817467327505530102977093890396140250196185543521803700000000000000000000000000000000000000000,
  14672183950002882163373406786695756574895132834967025803802448855244511493326662904683600000000000000000000000000000000000000000,
  15206722591964219392696515664964078092545617094538666784993329406222768202700023938036570000000000000000000000000000000000000000,
  15731260328253005655561975637752737312804964967724312327750442066153999742589988074293090000000000000000000000000000000000000000,
  16245452189291733885055125814390343182329019443659758459622602326790438230358516327094645000000000000000000000000000000000000000,
  16748960009656189991408785743377277499924728807525003926101225957536509318017705727406257400000000000000000000000000000000000000,
  17241452650463217936711435396329287104317074203356695671423736667498371542801595128198417900000000000000000000000000000000000000,
  17722606217140310270322866442416011546752544332318710929113952760466348669943765537014746510000000000000000000000000000000000000,
  18192104272432979772197597451980886324277131825291170719070340735454987664814074256449989280000000000000000000000000000000000000,
  18649638044509250637954544458733486292523053423574726584442874141577316613803404549762811540100000000000000000000000000000000000,
  19094906630024001530413912430624383304605322987281933467486912408919027031071172639904914868400000000000000000000000000000000000,
  19527617192009323576468000400725749838137669894638327060086847137733550673537956049657617924750000000000000000000000000000000000,
  19947485152460539604758624247187079246679304687477458591638104450480800028515416438619761324497000000000000000000000000000000000,
  20354234379491075872701578657707049624166779100294124961688833741972028039308256121190511894556000000000000000000000000000000000,
  20747597368932989487212308571834300211243259271381027852260182663799969001115488628276992227741230000000000000000000000000000000,
  21127315420263636364904518874011842229346732744043432266803283687475232536843028569810241983200582000000000000000000000000000000,
  21493138806742716893276315972438016670894653785967623826103532303897138365010885573346156635582249200000000000000000000000000000,
  21844826939647759302671786420236907981266275818683782589627619779209491602647545997948628002569884400000000000000000000000000000,
  22182148526499993229649394255364628640177763152412212763144861655650644276128023709760671584840478447000000000000000000000000000,
  22504881723176526603859203520594403659135887807353409055226542985431150191978967830182208581103934028700000000000000000000000000,
  22812814279808766004730510939475059781775621683981185039690341968163646319480455852661193789722923988680000000000000000000000000,
  23105743680371111921805871693658346660626010950349529361148326324828865937927106592650746159815130930602000000000000000000000000,
  23383477275868113623422731213266793258518686670086250913760050951447534811862538693551411185259800347432300000000000000000000000,
  23645832411032481150808394983616535860621731505675961302727436731306309903318249008525992374357711724081230000000000000000000000,
  23892636544450621748933801073223900361194964083902625246996720930103797011990984420314072912285821096601577500000000000000000000,
  24123727362036692168521027682810283454417848960511535227171818757221114760200418609403555627583145442484000890000000000000000000,
  24338952883780533996197828839528051682906113341574800806245963352226169088475674218964931159002497244670888578000000000000000000,
  24538171563699283699540562460702066111097334645627134915707756858238438496380802943236833631266648073090779025600000000000000000,
  24721252382926919564797237477129515715826570262301805975110517580161344098157305932644555145283025122886176359216000000000000000,
  24888074935880521265666994127140483911956748031057114594397712665732284506410718081283749108611594202014818751962700000000000000,
  25038529509446571499927144007284231834391339410263202598220508629621851213772486138303764294542799085705291900049860000000000000,
  25172517155135220000200716140898817799737713176442158325253217873221667087148741690498655551449052329769256706542971900000000000,
  25289949754155055268088662899317424623472492482091409016114848787451033895213353700795095424908372077850248588781068390000000000,
  25390750075365585572253641093264914262528436665566207981018388333208776937997276484806076715155882731799602321971338756000000000,
  25474851826069315041678068579189128313117093596994944057437768011905393693543068637941961873452643386109006367571495964790000000,
  25542199695610010004804241455177075460268380449405067891894802046376058792233491249765704200535398216442510596298487262124000000,
  25592749391748481984600256991847359200052048460598072671515873718927706124170479086733668790436993054849895996765817172842440000,
  25626467669791963853751446178164335335219862491128533663786452214536042058267461677828223112722435645378895888452770905535658000,
  25643332354457921464524709191225659719769087672646251763528965550233496054309066125602462433497313879082911367722732462472818810,
  25643332354457921464524709191225659719769087672646251763528965550233496054309066125602462433497313879082911367722732462472818810,
  25626467669791963853751446178164335335219862491128533663786452214536042058267461677828223112722435645378895888452770905535658000,
  25592749391748481984600256991847359200052048460598072671515873718927706124170479086733668790436993054849895996765817172842440000,
  25542199695610010004804241455177075460268380449405067891894802046376058792233491249765704200535398216442510596298487262124000000,
  25474851826069315041678068579189128313117093596994944057437768011905393693543068637941961873452643386109006367571495964790000000,
  25390750075365585572253641093264914262528436665566207981018388333208776937997276484806076715155882731799602321971338756000000000,
  25289949754155055268088662899317424623472492482091409016114848787451033895213353700795095424908372077850248588781068390000000000,
  25172517155135220000200716140898817799737713176442158325253217873221667087148741690498655551449052329769256706542971900000000000,
  25038529509446571499927144007284231834391339410263202598220508629621851213772486138303764294542799085705291900049860000000000000,
  24888074935880521265666994127140483911956748031057114594397712665732284506410718081283749108611594202014818751962700000000000000,
  24721252382926919564797237477129515715826570262301805975110517580161344098157305932644555145283025122886176359216000000000000000,
  24538171563699283699540562460702066111097334645627134915707756858238438496380802943236833631266648073090779025600000000000000000,
  24338952883780533996197828839528051682906113341574800806245963352226169088475674218964931159002497244670888578000000000000000000,
  24123727362036692168521027682810283454417848960511535227171818757221114760200418609403555627583145442484000890000000000000000000,
  23892636544450621748933801073223900361194964083902625246996720930103797011990984420314072912285821096601577500000000000000000000,
  23645832411032481150808394983616535860621731505675961302727436731306309903318249008525992374357711724081230000000000000000000000,
  23383477275868113623422731213266793258518686670086250913760050951447534811862538693551411185259800347432300000000000000000000000,
  23105743680371111921805871693658346660626010950349529361148326324828865937927106592650746159815130930602000000000000000000000000,
  22812814279808766004730510939475059781775621683981185039690341968163646319480455852661193789722923988680000000000000000000000000,
  22504881723176526603859203520594403659135887807353409055226542985431150191978967830182208581103934028700000000000000000000000000,
  22182148526499993229649394255364628640177763152412212763144861655650644276128023709760671584840478447000000000000000000000000000,
  21844826939647759302671786420236907981266275818683782589627619779209491602647545997948628002569884400000000000000000000000000000,
  21493138806742716893276315972438016670894653785967623826103532303897138365010885573346156635582249200000000000000000000000000000,
  21127315420263636364904518874011842229346732744043432266803283687475232536843028569810241983200582000000000000000000000000000000,
  20747597368932989487212308571834300211243259271381027852260182663799969001115488628276992227741230000000000000000000000000000000,
  20354234379491075872701578657707049624166779100294124961688833741972028039308256121190511894556000000000000000000000000000000000,
  19947485152460539604758624247187079246679304687477458591638104450480800028515416438619761324497000000000000000000000000000000000,
  19527617192009323576468000400725749838137669894638327060086847137733550673537956049657617924750000000000000000000000000000000000,
  19094906630024001530413912430624383304605322987281933467486912408919027031071172639904914868400000000000000000000000000000000000,
  18649638044509250637954544458733486292523053423574726584442874141577316613803404549762811540100000000000000000000000000000000000,
  18192104272432979772197597451980886324277131825291170719070340735454987664814074256449989280000000000000000000000000000000000000,
  17722606217140310270322866442416011546752544332318710929113952760466348669943765537014746510000000000000000000000000000000000000,
  17241452650463217936711435396329287104317074203356695671423736667498371542801595128198417900000000000000000000000000000000000000,
  16748960009656189991408785743377277499924728807525003926101225957536509318017705727406257400000000000000000000000000000000000000,
  16245452189291733885055125814390343182329019443659758459622602326790438230358516327094645000000000000000000000000000000000000000,
  15731260328253005655561975637752737312804964967724312327750442066153999742589988074293090000000000000000000000000000000000000000,
  15206722591964219392696515664964078092545617094538666784993329406222768202700023938036570000000000000000000000000000000000000000,
  14672183950002882163373406786695756574895132834967025803802448855244511493326662904683600000000000000000000000000000000000000000,
  14127995949241312811402600913624507817467327505530102977093890396140250196185543521803700000000000000000000000000000000000000000,
  13574516482668418471747287012287854626228084586782489041228583600142199994751557038966000000000000000000000000000000000000000000,
  13012109554046436681897270723404824214236834468827450237654986596199700240436833567484000000000000000000000000000000000000000000,
  12441145038561502906103027948189365458039475942798255193870524022532685804613247418090000000000000000000000000000000000000000000,
  11861998439631818442066083542100771673263338855800716801797886262335599523123934828940000000000000000000000000000000000000000000,
  11275050642043484185507044449963138199455009744044127616397985188303105976247794608000000000000000000000000000000000000000000000,
  10680687661592844859917320505551263444879579252501123852375502504253457525307064957300000000000000000000000000000000000000000000,
  10079300391427539913134143667177073775294710227045517377908643192912626282324255764700000000000000000000000000000000000000000000,
  9471284345300409439007844777588141100239564313319808447837986640822720954217607688000000000000000000000000000000000000000000000,
  8857039397989028010329721002146343956072118628596641570542885294192002937967430544000000000000000000000000000000000000000000000,
  8236969523205778446537753351545541572786076361454611063593586968568219322696815852000000000000000000000000000000000000000000000,
  7611482529465816027371512918926513555160237410035598568645802255975923034743459677000000000000000000000000000000000000000000000,
  6980989794677642254265533992554094111752439266535117548209267452929282260154664990000000000000000000000000000000000000000000000,
  6345906000880018219390583979024621369498109769111496293742560898904836798975815050000000000000000000000000000000000000000000000,
  5706648872110883426608036097541452312992465680654916551363308575164783884652644830000000000000000000000000000000000000000000000,
  5063638922397448573503334847521315220689518769605380506979364173363299773942472310000000000000000000000000000000000000000000000,
  4417299232128556961006435804609928549761529046727873763041450582910582142932244620000000000000000000000000000000000000000000000,
  3768055306701194160012979702835689980009450997957308578066262439002966112113404630000000000000000000000000000000000000000000000,
  3116335201838604294856675239936572800924538842608936033590481409820773509374407850000000000000000000000000000000000000000000000,
  2462570681225488728987282182496097196599674824577555960032347298466596233583742580000000000000000000000000000000000000000000000,
  1807203584188406226377336992557399109803633907728919171017211130708592346064130970000000000000000000000000000000000000000000000,
  1150732433894679893618357316078569793097461807129486542749129300757553939235529545000000000000000000000000000000000000000000000,
  494476870185165060900089258054711478227819067933371310145208799166427190983240022500000000000000000000000000000000000000000000]

/-- `case 123` (Util/Gauss_Legendre_Nodes_and_Weights.hpp:36638-37188), `nodes`. -/
def nodes123 : List Int := [
  -999810422343079114495929806425330822840894112382966665657648226490118279563014016943948923287169790654781937257500393592148824620,
  -999001261347608115527769922567738638527796304747968606860013674460590400489170832001696026184068259647166077175587031542240012290,
  -997546068212333470080466669624622839659018314638477972348059455090478133806528175715334660918015921823107561488559278274504095730,
  -995445461073201275387208881572579926306377965463849187281860138002282810224595223684812265650292797914796252911808565830997021820,
  -992700759510820344515032373712521354078884301736075967733731600993624674153578630710305834494579322560295343897161243731545296520,
  -989313730034852939479821306124477961222666314660238313099707273886894304415042494277556420768908775378830782276031256919215544270,
  -985286561089483416343173463783360204760562926598067733283901418724717737475904783480551341004161225136405132242464154750685723060,
  -980621857191486569165156370508581161034315502854723917029628034106587820593560819388117811977255840194039947330625938019839803390,
  -975322636063190843435594289183515795731285899779254334289642530086427888279699107084264584709521225536736665359965848241624991120,
  -969392326286736026653140881458680767863280817277535234791427968735845401486409495287545472681623904332302942345590446770466997530,
  -962834764932653934888642762113953060943558092002457845814710152901744969987439670917743756963395895883915825465725203645658735790,
  -955654195010231103236447036838214853068488092414512285170463112168850508833016372716733473355442794109641838199119486075137888950,
  -947855262690077587715172537304785179431704838344984889848106650886765603733541549013203724614099357419042284159320608614838522500,
  -939443014281362336640137188761284127782617724939563161604822888087275598693423027884343956262109023322198407513002009541690828220,
  -930422892957607404700205484827668908578320119497637340361941139184746302672557537743020352810142213565039214580994868359080015330,
  -920800735229515217122189682229717074375467727258172941559430286748065332986137619800647140625842941292804235570471454185467408170,
  -910582767165350801897530526566247215312053467344687152530601706150484437983804103399476565233774704309729326598930227130221911600,
  -899775600360425354240372725858802240157903621340754813667719868353782174985668639089419837204773892135267316496047322755855902510,
  -888386227657807234269529568937852329959321294988077401152551917365593050543776876886158659119033682212014669455595938261291149550,
  -876422018622760232352877048127920377180453339898886134339418102981204008705156184579856633083938081339224165274234722865374796790,
  -863890714773681583017576487618532676228912621665616595435620308006427571647679203127234085371063315238632227448472187164249624780,
  -850800424572532445534333412677363670887545576124060965935000723995339796159249130845715149297912272487142028181842685256571544370,
  -837159618177945059011486526894470216616252286636545915131085614827081253912099013761091810280129539319011759266367397006807989850,
  -822977121964365493366821333222732703314264783243738436074235739897421040367275648566698676430212635286009953529284816077517158410,
  -808262112810755120300278830208792993476904924700805904613304451314638919018249067975069483260539722160353935960073960580630584330,
  -793024112162530991460768421548341399785185093446045951540292057864655029314780299176139589694801189632601116961040292339316110540,
  -777272979870577085978124671584115903163320524663667963210476362545906835625515532567739752595796268172379378058563248942298537260,
  -761018907811305905379465344292256858264983350121895527501750624052720525013673178200705521486130585366806307052196004579860728270,
  -744272413291893721818856984087057402369928881677843457094358102808167652427409701876772302237059057195403217619704387821665893510,
  -727044332244953235669949171062144131603181159523718244430889947244016320507421729950237489776970649695213164143118898278443029870,
  -709345812217044628933080514364496925196559928696429177245520848272773448866616780327138122297565953221530220634837810159548881330,
  -691188305155560079436587091523270507977199351759882844457573203070998543563624402439173162046597807744849892131757099834219194410,
  -672583559998647741008573201042492273534640110885939233730323200257585603009895887448681334506308954153942890372749738275845848770,
  -653543615072968977204912859413764929929575348088692934880636445878102219960479853535221184271033244676675958402641705355631044140,
  -634080790304207221238997730066314781700989465810148472953564412489925623928709506808659936423879219976665094675227482899550676610,
  -614207679245368170743722408023598021750329982193978081749175988805409044367023371378669922565162440239169101625414927225882029130,
  -593937140928029054004600408615402123024776779248150910845688959362021508474790332707132118737572377918523759599846943179693995630,
  -573282291541809361438994435331355425195120734895857872204897151159135886945591555445476174191129428964321660918150198617213466400,
  -552256495947446657537409251529766373820461035722511126569375100716599720938131729590608480988493659921171558612276330870172068710,
  -530873359028968808844000413046240569364060084780535396677021524629976587723682510503227688613876002499126172221650064580975881130,
  -509146716890558117806106682272347116782744327238234109169708797627667546355864405835389055985140477409395381535859463006619180710,
  -487090627903803376421882707371727722664666195723144724459084102982966704653401416674591428902082553301502634914816192538980236670,
  -464719363611132684938356381948506808413043596370743067228381407754255964773688106051166740671784829455689415384910839531543979300,
  -442047399491312958511113242672384737860039820896816196933675491626071531464751218903822743313621710079655547735055515723788601040,
  -419089405592991309804397869720997831856665292904364375855528383643112033376927548105352796991057318708167490142004241298159907230,
  -395860237042338891190401898082483629258201725064269640924333432033455907518725178307286903044445269442100353159666323207967563160,
  -372374924430939251962220664175543440503629527774388354732887159690815294517818731511338056998061773624900384313322822575106621220,
  -348648664090140761630274629183803704308314351918229702260614098500456673549371006856632185215810936807419848114897093878455438330,
  -324696808258166120192044479560359159248801059010617120959966290880021977880492392115151265924314496868332367426971621839091801340,
  -300534855146341373022263310831890365701627916702752483309226444777011284427457682187089428172818265664461186295215520120341358490,
  -276178438910872127060342826295897701023402169057536226939748783218595394119969875803304783848351646799870461182600151373062012940,
  -251643319536655784218445133827117868016057604917439435486045866283412312768886140707119321987448913650961810243415215062060745160,
  -226945372639675527992011546588065130424568337021581320888300138603448868896310728773644696063866545826181215292360860340967765220,
  -202100579194574483404976301148903218980896154738081075496895242787322815617536312076796824151889142153203530193709092091622198970,
  -177125015194056884661206216628515663456546888668188009803507422260545236030085004478332772630473856271648799449967397751003639320,
  -152034841246807197942967138168823217846503701636130878474288548306509423983177753915498711142247888999786357322622606304135383180,
  -126846292120657930206049234343493740772363716664501484801522270249686299842191267608590986557107982877609812480194002350741991220,
  -101575666237772282869384017442236112191237470736536335713298473339025879828836114427351164829521274397946647526207850132904053410,
  -76239315128638859093560748061659653969222872333747853035805239288807619025524553335924527255275699058864333543148798072795293871,
  -50853632851702284822449261499456769019900077326714526148508031108265010112857457663731608291701605231633079558466244605257773899,
  -25435045385475839700229556077687536211884116051811124974188635535276159185417304882963961061683554213122092061329980533401195821,
  0,
  25435045385475839700229556077687536211884116051811124974188635535276159185417304882963961061683554213122092061329980533401195821,
  50853632851702284822449261499456769019900077326714526148508031108265010112857457663731608291701605231633079558466244605257773899,
  76239315128638859093560748061659653969222872333747853035805239288807619025524553335924527255275699058864333543148798072795293871,
  101575666237772282869384017442236112191237470736536335713298473339025879828836114427351164829521274397946647526207850132904053410,
  126846292120657930206049234343493740772363716664501484801522270249686299842191267608590986557107982877609812480194002350741991220,
  152034841246807197942967138168823217846503701636130878474288548306509423983177753915498711142247888999786357322622606304135383180,
  177125015194056884661206216628515663456546888668188009803507422260545236030085004478332772630473856271648799449967397751003639320,
  202100579194574483404976301148903218980896154738081075496895242787322815617536312076796824151889142153203530193709092091622198970,
  226945372639675527992011546588065130424568337021581320888300138603448868896310728773644696063866545826181215292360860340967765220,
  251643319536655784218445133827117868016057604917439435486045866283412312768886140707119321987448913650961810243415215062060745160,
  276178438910872127060342826295897701023402169057536226939748783218595394119969875803304783848351646799870461182600151373062012940,
  300534855146341373022263310831890365701627916702752483309226444777011284427457682187089428172818265664461186295215520120341358490,
  324696808258166120192044479560359159248801059010617120959966290880021977880492392115151265924314496868332367426971621839091801340,
  348648664090140761630274629183803704308314351918229702260614098500456673549371006856632185215810936807419848114897093878455438330,
  372374924430939251962220664175543440503629527774388354732887159690815294517818731511338056998061773624900384313322822575106621220,
  395860237042338891190401898082483629258201725064269640924333432033455907518725178307286903044445269442100353159666323207967563160,
  419089405592991309804397869720997831856665292904364375855528383643112033376927548105352796991057318708167490142004241298159907230,
  442047399491312958511113242672384737860039820896816196933675491626071531464751218903822743313621710079655547735055515723788601040,
  464719363611132684938356381948506808413043596370743067228381407754255964773688106051166740671784829455689415384910839531543979300,
  487090627903803376421882707371727722664666195723144724459084102982966704653401416674591428902082553301502634914816192538980236670,
  509146716890558117806106682272347116782744327238234109169708797627667546355864405835389055985140477409395381535859463006619180710,
  530873359028968808844000413046240569364060084780535396677021524629976587723682510503227688613876002499126172221650064580975881130,
  552256495947446657537409251529766373820461035722511126569375100716599720938131729590608480988493659921171558612276330870172068710,
  573282291541809361438994435331355425195120734895857872204897151159135886945591555445476174191129428964321660918150198617213466400,
  593937140928029054004600408615402123024776779248150910845688959362021508474790332707132118737572377918523759599846943179693995630,
  614207679245368170743722408023598021750329982193978081749175988805409044367023371378669922565162440239169101625414927225882029130,
  634080790304207221238997730066314781700989465810148472953564412489925623928709506808659936423879219976665094675227482899550676610,
  653543615072968977204912859413764929929575348088692934880636445878102219960479853535221184271033244676675958402641705355631044140,
  672583559998647741008573201042492273534640110885939233730323200257585603009895887448681334506308954153942890372749738275845848770,
  691188305155560079436587091523270507977199351759882844457573203070998543563624402439173162046597807744849892131757099834219194410,
  709345812217044628933080514364496925196559928696429177245520848272773448866616780327138122297565953221530220634837810159548881330,
  727044332244953235669949171062144131603181159523718244430889947244016320507421729950237489776970649695213164143118898278443029870,
  744272413291893721818856984087057402369928881677843457094358102808167652427409701876772302237059057195403217619704387821665893510,
  761018907811305905379465344292256858264983350121895527501750624052720525013673178200705521486130585366806307052196004579860728270,
  777272979870577085978124671584115903163320524663667963210476362545906835625515532567739752595796268172379378058563248942298537260,
  793024112162530991460768421548341399785185093446045951540292057864655029314780299176139589694801189632601116961040292339316110540,
  808262112810755120300278830208792993476904924700805904613304451314638919018249067975069483260539722160353935960073960580630584330,
  822977121964365493366821333222732703314264783243738436074235739897421040367275648566698676430212635286009953529284816077517158410,
  837159618177945059011486526894470216616252286636545915131085614827081253912099013761091810280129539319011759266367397006807989850,
  850800424572532445534333412677363670887545576124060965935000723995339796159249130845715149297912272487142028181842685256571544370,
  863890714773681583017576487618532676228912621665616595435620308006427571647679203127234085371063315238632227448472187164249624780,
  876422018622760232352877048127920377180453339898886134339418102981204008705156184579856633083938081339224165274234722865374796790,
  888386227657807234269529568937852329959321294988077401152551917365593050543776876886158659119033682212014669455595938261291149550,
  899775600360425354240372725858802240157903621340754813667719868353782174985668639089419837204773892135267316496047322755855902510,
  910582767165350801897530526566247215312053467344687152530601706150484437983804103399476565233774704309729326598930227130221911600,
  920800735229515217122189682229717074375467727258172941559430286748065332986137619800647140625842941292804235570471454185467408170,
  930422892957607404700205484827668908578320119497637340361941139184746302672557537743020352810142213565039214580994868359080015330,
  939443014281362336640137188761284127782617724939563161604822888087275598693423027884343956262109023322198407513002009541690828220,
  947855262690077587715172537304785179431704838344984889848106650886765603733541549013203724614099357419042284159320608614838522500,
  955654195010231103236447036838214853068488092414512285170463112168850508833016372716733473355442794109641838199119486075137888950,
  962834764932653934888642762113953060943558092002457845814710152901744969987439670917743756963395895883915825465725203645658735790,
  969392326286736026653140881458680767863280817277535234791427968735845401486409495287545472681623904332302942345590446770466997530,
  975322636063190843435594289183515795731285899779254334289642530086427888279699107084264584709521225536736665359965848241624991120,
  980621857191486569165156370508581161034315502854723917029628034106587820593560819388117811977255840194039947330625938019839803390,
  985286561089483416343173463783360204760562926598067733283901418724717737475904783480551341004161225136405132242464154750685723060,
  989313730034852939479821306124477961222666314660238313099707273886894304415042494277556420768908775378830782276031256919215544270,
  992700759510820344515032373712521354078884301736075967733731600993624674153578630710305834494579322560295343897161243731545296520,
  995445461073201275387208881572579926306377965463849187281860138002282810224595223684812265650292797914796252911808565830997021820,
  997546068212333470080466669624622839659018314638477972348059455090478133806528175715334660918015921823107561488559278274504095730,
  999001261347608115527769922567738638527796304747968606860013674460590400489170832001696026184068259647166077175587031542240012290,
  999810422343079114495929806425330822840894112382966665657648226490118279563014016943948923287169790654781937257500393592148824620]

/-- `case 123` (Util/Gauss_Legendre_Nodes_and_Weights.hpp:36638-37188), `weights`. -/
def weights123 : List Nat := [
  486502115104507414406408541484538854986501459466130531688376250186679725321582993000000000000000000000000000000000000000000000,
  1132178819696543683263756800080540313230899924746095017215779923762932001501171461000000000000000000000000000000000000000000000,
  1778079636553533161868504136395174697991358837858873216498212085903541162989907530000000000000000000000000000000000000000000000,
  2422913050505638315900323699686206411468804810058252859206675007470671009861303010000000000000000000000000000000000000000000000,
  3066195394755793121820437112080661097868285107433467125504345124357305372356667500000000000000000000000000000000000000000000000,
  3707498738588316142614307110928766477291469024916124238885736519534914154647109080000000000000000000000000000000000000000000000,
  4346405022039513530267178393322750099023458612026767940999744720020106624024013450000000000000000000000000000000000000000000000,
  4982499782088290347259186324382406928980756835195544881414631315555950997810970630000000000000000000000000000000000000000000000,
  5615371004908862043170888870143705979932796551585006721969931264232245522272644930000000000000000000000000000000000000000000000,
  6244608993848943235934978777989334746043666123072928065121598150728917009215085370000000000000000000000000000000000000000000000,
  6869806499845681370665985992098439301100587099636007028919513708297428298973792560000000000000000000000000000000000000000000000,
  7490558932864552481246584284818618379949301395359015330002309638387833482526880210000000000000000000000000000000000000000000000,
  8106464601347007906944588522386472775916439629412145824039189201387960817463326690000000000000000000000000000000000000000000000,
  8717124961708678363347295232766215640891341371196595089381281404315068538413831637000000000000000000000000000000000000000000000,
  9322144871019980615107958084620173027388942431854593417038300927938780136735689397000000000000000000000000000000000000000000000,
  9921132839939813619925106532120390123652442017558399637515895370758976272190096230000000000000000000000000000000000000000000000,
  10513701284509679017006316165437500783733127102607273303111256088824657807054860078400000000000000000000000000000000000000000000,
  11099466776063840353479291998165367399446333141111756536113714453318633039225746501300000000000000000000000000000000000000000000,
  11678050288803598587752699134935576303663516021078690134555300328738452924320663422300000000000000000000000000000000000000000000,
  12249077444723786436252100799041963655391562026912346607062273714020994308028595326360000000000000000000000000000000000000000000,
  12812178755650436862555509384718862107991475779059150893839706927815667168345373547420000000000000000000000000000000000000000000,
  13366989862186452979306327403181918915345523679261460693641291306026405746776265031015000000000000000000000000000000000000000000,
  13913151769383568535913666946690289398288993796542083637810322922791389820049389319960000000000000000000000000000000000000000000,
  14450311078971881727521645304341618477573539415809303408528431406874307325831018844901100000000000000000000000000000000000000000,
  14978120217986733529526671424778301720810597635496499702512686242174444767500148349360200000000000000000000000000000000000000000,
  15496237663638735484700854883656320385719934431342612186988655561241013279519421864693000000000000000000000000000000000000000000,
  16004328164277426291618389637470445299811528700735423499674868077625953880008917971555486000000000000000000000000000000000000000,
  16502062956302954053714221484494942420159797878347177070145916267967726018814411906107988000000000000000000000000000000000000000,
  16989119976883681545152635180465929356748331496307251481891521003759923696529492650895461900000000000000000000000000000000000000,
  17465184072340891534790291939546875598292426768519712292522488375486729394139336276841188640000000000000000000000000000000000000,
  17929947202064943589170068306131888445573450997661394347453151479242035710438418624629799910000000000000000000000000000000000000,
  18383108637830371961383964656296243492458914225342330398636826633632233300439697743946380503000000000000000000000000000000000000,
  18824375158380558015481811222023776964510260998661530578176488203024287871310709712980966497200000000000000000000000000000000000,
  19253461239155785639457964896046389126214742139794555625763391397776750440417088673727266459860000000000000000000000000000000000,
  19670089237041709775593424527680769456909876036074517782545957227368549637116839289044533261664000000000000000000000000000000000,
  20073989570018545837878691527126579066334687479418722189366956616012279985673475609717050795774000000000000000000000000000000000,
  20464900891594626746113400635657803903827459864583050848038650255537847245598593412497785911795200000000000000000000000000000000,
  20842570259911377400881994570653679304308224822666608164345501921820516993938247814613394573773130000000000000000000000000000000,
  21206753301410224805648034939926010395548934085845227528225142355232199849034602891710186571264378000000000000000000000000000000,
  21557214368955495755686065416369117379148833797214921376568478893082905209808265485544057567755709100000000000000000000000000000,
  21893726694310952350119732275511381710062988352140361176773909667924764933927740917305469597009327120000000000000000000000000000,
  22216072534871277314472215643148102584385676973602518200959833853567778611215499332067964686392830936000000000000000000000000000,
  22524043314553544651608838010724818495047715000871241874375001220420574336185692425855065617759622810000000000000000000000000000,
  22817439758757494609367803675546736282585689552029961103351306583763471765791443928644537057739054771112000000000000000000000000,
  23096072023307273309584131619225590496102106547796912220808871458183423606213280112117147539533678861353100000000000000000000000,
  23359759817291194424948128025059753015886915965698099878606417412829048841289673378014666858644412338079680000000000000000000000,
  23608332519720030703186987210032410822644590877709570977455332234651278693710797848451646904560867162891626000000000000000000000,
  23841629289928344518689411604177989444849940163843093922300307642427973478255005044632113697790827977991417700000000000000000000,
  24059499171647416503511712568729436557531318845045989761136381439424498057268972984131061219164733322707696500000000000000000000,
  24261801190682427136166970642627384595338358214945274077985159666652264821967421442041276230326950156004120091900000000000000000,
  24448404446130685360424238348402545983794536743474801393846838685385046449919978928882684003306603480248070654530000000000000000,
  24619188195081878236748468231319277212072601972006705936879029823753851132394971737447263784572385977152848769792000000000000000,
  24774041930745533627426428124749937885840812853733576933366632205407691401239703390722696000854920543436565452042340000000000000,
  24912865453955141281144957847753199455122559087363865652110438390875754083791845105723774096969743006346977702448721000000000000,
  25035568938002663682859939390408369172786500858185184415061672674155912455939252747878323495572210247410602550099565500000000000,
  25142072986761483913353274406692308022924753703905025226437692903392418610033849398907905975739103831684809255727696062000000000,
  25232308686060180740101902672541749778948496034551036046943983587775289011008770570342155021776586029879105472967051019300000000,
  25306217648273888436876197299996713119134215138830854710994625825519596309421894702321305400336181696305030566645338095803000000,
  25363752050104387585931714321543056200954118586714442319722691905216980497832721002142520145105724854610684121163447330823700000,
  25404874663524480520356459152140976819707874073456590808054313706960832724604051265699117886355612042233462242644581945771367000,
  25429558879866628268412168654579879845138737406635664398921482000133984717314528992764097764060386082762595004209551338800836200,
  25437788727040262008757578949891636571220738991379363501975157678684697828898503422343659379012370230841454783495001506240603467,
  25429558879866628268412168654579879845138737406635664398921482000133984717314528992764097764060386082762595004209551338800836200,
  25404874663524480520356459152140976819707874073456590808054313706960832724604051265699117886355612042233462242644581945771367000,
  25363752050104387585931714321543056200954118586714442319722691905216980497832721002142520145105724854610684121163447330823700000,
  25306217648273888436876197299996713119134215138830854710994625825519596309421894702321305400336181696305030566645338095803000000,
  25232308686060180740101902672541749778948496034551036046943983587775289011008770570342155021776586029879105472967051019300000000,
  25142072986761483913353274406692308022924753703905025226437692903392418610033849398907905975739103831684809255727696062000000000,
  25035568938002663682859939390408369172786500858185184415061672674155912455939252747878323495572210247410602550099565500000000000,
  24912865453955141281144957847753199455122559087363865652110438390875754083791845105723774096969743006346977702448721000000000000,
  24774041930745533627426428124749937885840812853733576933366632205407691401239703390722696000854920543436565452042340000000000000,
  24619188195081878236748468231319277212072601972006705936879029823753851132394971737447263784572385977152848769792000000000000000,
  24448404446130685360424238348402545983794536743474801393846838685385046449919978928882684003306603480248070654530000000000000000,
  24261801190682427136166970642627384595338358214945274077985159666652264821967421442041276230326950156004120091900000000000000000,
  24059499171647416503511712568729436557531318845045989761136381439424498057268972984131061219164733322707696500000000000000000000,
  23841629289928344518689411604177989444849940163843093922300307642427973478255005044632113697790827977991417700000000000000000000,
  23608332519720030703186987210032410822644590877709570977455332234651278693710797848451646904560867162891626000000000000000000000,
  23359759817291194424948128025059753015886915965698099878606417412829048841289673378014666858644412338079680000000000000000000000,
  23096072023307273309584131619225590496102106547796912220808871458183423606213280112117147539533678861353100000000000000000000000,
  22817439758757494609367803675546736282585689552029961103351306583763471765791443928644537057739054771112000000000000000000000000,
  22524043314553544651608838010724818495047715000871241874375001220420574336185692425855065617759622810000000000000000000000000000,
  22216072534871277314472215643148102584385676973602518200959833853567778611215499332067964686392830936000000000000000000000000000,
  21893726694310952350119732275511381710062988352140361176773909667924764933927740917305469597009327120000000000000000000000000000,
  21557214368955495755686065416369117379148833797214921376568478893082905209808265485544057567755709100000000000000000000000000000,
  21206753301410224805648034939926010395548934085845227528225142355232199849034602891710186571264378000000000000000000000000000000,
  20842570259911377400881994570653679304308224822666608164345501921820516993938247814613394573773130000000000000000000000000000000,
  20464900891594626746113400635657803903827459864583050848038650255537847245598593412497785911795200000000000000000000000000000000,
  20073989570018545837878691527126579066334687479418722189366956616012279985673475609717050795774000000000000000000000000000000000,
  19670089237041709775593424527680769456909876036074517782545957227368549637116839289044533261664000000000000000000000000000000000,
  19253461239155785639457964896046389126214742139794555625763391397776750440417088673727266459860000000000000000000000000000000000,
  18824375158380558015481811222023776964510260998661530578176488203024287871310709712980966497200000000000000000000000000000000000,
  18383108637830371961383964656296243492458914225342330398636826633632233300439697743946380503000000000000000000000000000000000000,
  17929947202064943589170068306131888445573450997661394347453151479242035710438418624629799910000000000000000000000000000000000000,
  17465184072340891534790291939546875598292426768519712292522488375486729394139336276841188640000000000000000000000000000000000000,
  16989119976883681545152635180465929356748331496307251481891521003759923696529492650895461900000000000000000000000000000000000000,
  16502062956302954053714221484494942420159797878347177070145916267967726018814411906107988000000000000000000000000000000000000000,
  16004328164277426291618389637470445299811528700735423499674868077625953880008917971555486000000000000000000000000000000000000000,
  15496237663638735484700854883656320385719934431342612186988655561241013279519421864693000000000000000000000000000000000000000000,
  14978120217986733529526671424778301720810597635496499702512686242174444767500148349360200000000000000000000000000000000000000000,
  14450311078971881727521645304341618477573539415809303408528431406874307325831018844901100000000000000000000000000000000000000000,
  13913151769383568535913666946690289398288993796542083637810322922791389820049389319960000000000000000000000000000000000000000000,
  13366989862186452979306327403181918915345523679261460693641291306026405746776265031015000000000000000000000000000000000000000000,
  12812178755650436862555509384718862107991475779059150893839706927815667168345373547420000000000000000000000000000000000000000000,
  12249077444723786436252100799041963655391562026912346607062273714020994308028595326360000000000000000000000000000000000000000000,
  11678050288803598587752699134935576303663516021078690134555300328738452924320663422300000000000000000000000000000000000000000000,
  11099466776063840353479291998165367399446333141111756536113714453318633039225746501300000000000000000000000000000000000000000000,
  10513701284509679017006316165437500783733127102607273303111256088824657807054860078400000000000000000000000000000000000000000000,
  9921132839939813619925106532120390123652442017558399637515895370758976272190096230000000000000000000000000000000000000000000000,
  9322144871019980615107958084620173027388942431854593417038300927938780136735689397000000000000000000000000000000000000000000000,
  8717124961708678363347295232766215640891341371196595089381281404315068538413831637000000000000000000000000000000000000000000000,
  8106464601347007906944588522386472775916439629412145824039189201387960817463326690000000000000000000000000000000000000000000000,
  7490558932864552481246584284818618379949301395359015330002309638387833482526880210000000000000000000000000000000000000000000000,
  6869806499845681370665985992098439301100587099636007028919513708297428298973792560000000000000000000000000000000000000000000000,
  6244608993848943235934978777989334746043666123072928065121598150728917009215085370000000000000000000000000000000000000000000000,
  5615371004908862043170888870143705979932796551585006721969931264232245522272644930000000000000000000000000000000000000000000000,
  4982499782088290347259186324382406928980756835195544881414631315555950997810970630000000000000000000000000000000000000000000000,
  4346405022039513530267178393322750099023458612026767940999744720020106624024013450000000000000000000000000000000000000000000000,
  3707498738588316142614307110928766477291469024916124238885736519534914154647109080000000000000000000000000000000000000000000000,
  3066195394755793121820437112080661097868285107433467125504345124357305372356667500000000000000000000000000000000000000000000000,
  2422913050505638315900323699686206411468804810058252859206675007470671009861303010000000000000000000000000000000000000000000000,
  1778079636553533161868504136395174697991358837858873216498212085903541162989907530000000000000000000000000000000000000000000000,
  1132178819696543683263756800080540313230899924746095017215779923762932001501171461000000000000000000000000000000000000000000000,
  486502115104507414406408541484538854986501459466130531688376250186679725321582993000000000000000000000000000000000000000000000]

/-- `case 124` (Util/Gauss_Legendre_Nodes_and_Weights.hpp:37190-37744), `nodes`. -/
def nodes124 : List Int := [
  -999813455426052353620852574833221564672704881453565933308485836523947929469590992383904707354053953801964780592187911010125101140,
  -999017238204525558248839623398349191876927936303832949188498338560388736186681939125013835982343086303745188068691731078512153560,
  -997585314467835906017410454522350410204392400928375701653871575386094238113961637088028510993666105855056572924518435149662655050,
  -995518277647889081774669427750347996898773707403933984356593801515919790248997087666620881672673754198236666049581934127476199560,
  -992817404839417547812946275905579959423145861393555870264036960100751835953411131444461720448302065019023572491273239673863923950,
  -989484406384053630030353859942460261792110933955464214030915652936247021818894563042227844922042715842406565807826658127577147120,
  -985521401311568963911625331255365481324056350775169088255365337406706118447092847257860702249770390406390212640689974743837670410,
  -980930911615961126810844784017631774018577343319092844085108713104220453597268842088389485917481707041026813682324300626388062950,
  -975715859486843453858935714795313222560802158717740627617871221046582218234225663449472103632632733217921026915079147095767765250,
  -969879565062064770864122664031193729663770324228009271342473401336336633570029247728110278513468601176121443961033482610555879050,
  -963425744163280532364058102916182246818076988538579322856593096089129673242381855234036307924824559518492919698923737250199179800,
  -956358505864308482008090401369104965515093115165199832745209324722337845532425312789467363768961507415839417221737579467549724680,
  -948682349843411718293754132652412865746410121146830015768296731442675579847823964188497655259469334402619506618727461805901149310,
  -940402163502167996148553380958818476629447865219237891233335427758526606277991554208114217814556737835955349308756023270179628710,
  -931523218844825252447571404307304199353504225952916859307259498175115296581572198886104615886329216197848024660033885863051378850,
  -922051169116544296168473788041469482616660357046126601619442648163406526298896144601547659907225244720313345859768568082069691120,
  -911992045200936964563537251735426204133879952424399786841529327741818136078166685983352448033292862021374817843759089870363094060,
  -901352251778308605618293382461373466773565024075941817143849855850083381816195877902434581639970767121964124676958042027003549590,
  -890138563246576808686799811283525542674049589104283662654037113278834112950909972174403454734520482105099913704148454785912928510,
  -878358119407198762581679735720930034765674981193389994591343701488098626615827598094404252858348400526961180471723452786267453830,
  -866018420918700717561529463326675482567308566840433744855170480331387805361039701513393457730166899461955334834762973619952726750,
  -853127324520612669671502495467633676647781963519206940331264167200178493857952565667241262003659663498619652673207149964252465090,
  -839693038030792862054678752322485627124595228017126543963860972797638939949753401093065252529055809849668830040243525441343894320,
  -825724115119291793912898657088454908202137628393649624117874375641091045475966287998484314671412165869000272510327319852402101650,
  -811229449862060314835691907416929241146425556621914105216012912360064919435759738541160084398308784771746919245733573821365831470,
  -796218271077954383189536197241633103820253469121465181320636061417686553811301663492749505457086949612150446487582126107132364100,
  -780700136452632009823248365550867330152031841687838924580965549830582291352845694588105364537290841247059993810503994995381754050,
  -764684926453076810570200791767607719350330608328663013528194116057936258553989785543163645673496052683992657337788279541924294530,
  -748182838036618020417254300667207432040746816993727476366846242768489742216151596328425235093665855604954599566044090619665582500,
  -731204378158449089276462326641456864178265412449566709874386316926272593630180513094989257557120820296799555934726856645512631900,
  -713760357081776244775004902074088793150168163683958777894904000873787513019488447590882402853045282103684658799359713384673412530,
  -695861881494854743192446453126265932827530777286470663233085710396016987935894503525426197536437218964493874269755887492564441930,
  -677520347439293953870418206395335630560782859714285993103405861100778664611207655852858270367834792200347669525561461399638181940,
  -658747433054132920734722152719911774648106159840420066280110043774510824274288850226800586761459298422160075370221421557381082380,
  -639555091140305582708211521769747323752170292785011623099535855262621351274205775594108364721486013086892893665160279548380331680,
  -619955541550229366341484091752351056808067280713886150909459945443897117682460828334678289956175844797838252975399931779539225800,
  -599961263407362335318616672628408105630900522363801273665322109320119388887686284428469889403571610683011619655333895805104203100,
  -579584987160682434890754420729440040479132578307626863782396417734548530838035272379145760144931802815906565914091720059685182740,
  -558839686479147544978285753158487805606790627645084163505174974972153938892316048196523168172762220149097377595914997332298769930,
  -537738569991296993172675666182113603877697323371605339034312046169457178023758389569018741545968404546648571973886325395939867900,
  -516295072875253817854844281305186464080369797308477674537589240796169119080628461321673229333324234810414542452656823501496030530,
  -494522848304482352619272548261857415255884117537913313291222828558750292182948733222221837924051090518021183773731099478504215600,
  -472435758754747567869076103332874631322203346171976453710660075455171620671635187247720904300619768135969705575935718920242364510,
  -450047867177810997074973146151663694145799812592062363203301067747037726142209720445521317501839046689594090441347161117644964770,
  -427373428047482938769680804675791084667131469689720639472262187747633940944861546798354544952986285208679169261499746410546528960,
  -404426878283731907793496007922079117713408061698123852051527719682256189990881032064292520082431520211128492414115075499226740930,
  -381222828060629959571350666830603373933049680133489220357391353034453422857781281315186389305590781251310339989384348355129790690,
  -357776051503986480378212876986737622023034885362513408035307031298642526362964913897509963266345328247838941411092712900061550200,
  -334101477284593277944471294005541788904530721281781027675948377953897983613137461914835577770886707547730353055185722210118078110,
  -310214179113070275949525114644632229653005774376950637898439762283757707297742125417603464636211688861547858183769287852192502080,
  -286129366142363770863897279820082447442073039088802758536561078116400297652337855305957351777693192767792067374950212839804582920,
  -261862373284008010516114060776813047884005454234213656559726841173166754096452796082101474168155136952853110253207280433052364190,
  -237428651444315763381697512369520139075223213059431837603213819555292077066292565025347149765399010972048335036677981182115493830,
  -212843757686714531065751960105307648137303304496939103256195745024678209078888016712854636274276742337800021627125927208634138450,
  -188123345326492081401607038628062362729185919071023910651397716219038629306237604507987113900629302562198235279068968401598249820,
  -163283153964258016141653012274765060774662711673908732352216462056564732277537827960176465253396299649421106087852138768515714410,
  -138338999464467108023880440143411868801973856085249727077216811496054247715287415218350548790386393864192966149439067959218005480,
  -113306763885385122255424745868282839422399768947321271790814203225842967755645862543299491736131369530834248192693789670517927460,
  -88202385366908754923187532607283773195974970336888583637604810975667820469030849155783694970081344165656379833190977942696776785,
  -63041847982678155861759882907688194693997432104615655285881516972092061614327803391989522724863222582597153259963335063551996516,
  -37841171562943239014531335984803900368498242514488892257475752026451369130287976489385401590062760128919134495440833237171151080,
  -12616401494663604854791202203403533580986688428540606084561449670268776923201479395312208532422719820969960951243537951476663534,
  12616401494663604854791202203403533580986688428540606084561449670268776923201479395312208532422719820969960951243537951476663534,
  37841171562943239014531335984803900368498242514488892257475752026451369130287976489385401590062760128919134495440833237171151080,
  63041847982678155861759882907688194693997432104615655285881516972092061614327803391989522724863222582597153259963335063551996516,
  88202385366908754923187532607283773195974970336888583637604810975667820469030849155783694970081344165656379833190977942696776785,
  113306763885385122255424745868282839422399768947321271790814203225842967755645862543299491736131369530834248192693789670517927460,
  138338999464467108023880440143411868801973856085249727077216811496054247715287415218350548790386393864192966149439067959218005480,
  163283153964258016141653012274765060774662711673908732352216462056564732277537827960176465253396299649421106087852138768515714410,
  188123345326492081401607038628062362729185919071023910651397716219038629306237604507987113900629302562198235279068968401598249820,
  212843757686714531065751960105307648137303304496939103256195745024678209078888016712854636274276742337800021627125927208634138450,
  237428651444315763381697512369520139075223213059431837603213819555292077066292565025347149765399010972048335036677981182115493830,
  261862373284008010516114060776813047884005454234213656559726841173166754096452796082101474168155136952853110253207280433052364190,
  286129366142363770863897279820082447442073039088802758536561078116400297652337855305957351777693192767792067374950212839804582920,
  310214179113070275949525114644632229653005774376950637898439762283757707297742125417603464636211688861547858183769287852192502080,
  334101477284593277944471294005541788904530721281781027675948377953897983613137461914835577770886707547730353055185722210118078110,
  357776051503986480378212876986737622023034885362513408035307031298642526362964913897509963266345328247838941411092712900061550200,
  381222828060629959571350666830603373933049680133489220357391353034453422857781281315186389305590781251310339989384348355129790690,
  404426878283731907793496007922079117713408061698123852051527719682256189990881032064292520082431520211128492414115075499226740930,
  427373428047482938769680804675791084667131469689720639472262187747633940944861546798354544952986285208679169261499746410546528960,
  450047867177810997074973146151663694145799812592062363203301067747037726142209720445521317501839046689594090441347161117644964770,
  472435758754747567869076103332874631322203346171976453710660075455171620671635187247720904300619768135969705575935718920242364510,
  494522848304482352619272548261857415255884117537913313291222828558750292182948733222221837924051090518021183773731099478504215600,
  516295072875253817854844281305186464080369797308477674537589240796169119080628461321673229333324234810414542452656823501496030530,
  537738569991296993172675666182113603877697323371605339034312046169457178023758389569018741545968404546648571973886325395939867900,
  558839686479147544978285753158487805606790627645084163505174974972153938892316048196523168172762220149097377595914997332298769930,
  579584987160682434890754420729440040479132578307626863782396417734548530838035272379145760144931802815906565914091720059685182740,
  599961263407362335318616672628408105630900522363801273665322109320119388887686284428469889403571610683011619655333895805104203100,
  619955541550229366341484091752351056808067280713886150909459945443897117682460828334678289956175844797838252975399931779539225800,
  639555091140305582708211521769747323752170292785011623099535855262621351274205775594108364721486013086892893665160279548380331680,
  658747433054132920734722152719911774648106159840420066280110043774510824274288850226800586761459298422160075370221421557381082380,
  677520347439293953870418206395335630560782859714285993103405861100778664611207655852858270367834792200347669525561461399638181940,
  695861881494854743192446453126265932827530777286470663233085710396016987935894503525426197536437218964493874269755887492564441930,
  713760357081776244775004902074088793150168163683958777894904000873787513019488447590882402853045282103684658799359713384673412530,
  731204378158449089276462326641456864178265412449566709874386316926272593630180513094989257557120820296799555934726856645512631900,
  748182838036618020417254300667207432040746816993727476366846242768489742216151596328425235093665855604954599566044090619665582500,
  764684926453076810570200791767607719350330608328663013528194116057936258553989785543163645673496052683992657337788279541924294530,
  780700136452632009823248365550867330152031841687838924580965549830582291352845694588105364537290841247059993810503994995381754050,
  796218271077954383189536197241633103820253469121465181320636061417686553811301663492749505457086949612150446487582126107132364100,
  811229449862060314835691907416929241146425556621914105216012912360064919435759738541160084398308784771746919245733573821365831470,
  825724115119291793912898657088454908202137628393649624117874375641091045475966287998484314671412165869000272510327319852402101650,
  839693038030792862054678752322485627124595228017126543963860972797638939949753401093065252529055809849668830040243525441343894320,
  853127324520612669671502495467633676647781963519206940331264167200178493857952565667241262003659663498619652673207149964252465090,
  866018420918700717561529463326675482567308566840433744855170480331387805361039701513393457730166899461955334834762973619952726750,
  878358119407198762581679735720930034765674981193389994591343701488098626615827598094404252858348400526961180471723452786267453830,
  890138563246576808686799811283525542674049589104283662654037113278834112950909972174403454734520482105099913704148454785912928510,
  901352251778308605618293382461373466773565024075941817143849855850083381816195877902434581639970767121964124676958042027003549590,
  911992045200936964563537251735426204133879952424399786841529327741818136078166685983352448033292862021374817843759089870363094060,
  922051169116544296168473788041469482616660357046126601619442648163406526298896144601547659907225244720313345859768568082069691120,
  931523218844825252447571404307304199353504225952916859307259498175115296581572198886104615886329216197848024660033885863051378850,
  940402163502167996148553380958818476629447865219237891233335427758526606277991554208114217814556737835955349308756023270179628710,
  948682349843411718293754132652412865746410121146830015768296731442675579847823964188497655259469334402619506618727461805901149310,
  956358505864308482008090401369104965515093115165199832745209324722337845532425312789467363768961507415839417221737579467549724680,
  963425744163280532364058102916182246818076988538579322856593096089129673242381855234036307924824559518492919698923737250199179800,
  969879565062064770864122664031193729663770324228009271342473401336336633570029247728110278513468601176121443961033482610555879050,
  975715859486843453858935714795313222560802158717740627617871221046582218234225663449472103632632733217921026915079147095767765250,
  980930911615961126810844784017631774018577343319092844085108713104220453597268842088389485917481707041026813682324300626388062950,
  985521401311568963911625331255365481324056350775169088255365337406706118447092847257860702249770390406390212640689974743837670410,
  989484406384053630030353859942460261792110933955464214030915652936247021818894563042227844922042715842406565807826658127577147120,
  992817404839417547812946275905579959423145861393555870264036960100751835953411131444461720448302065019023572491273239673863923950,
  995518277647889081774669427750347996898773707403933984356593801515919790248997087666620881672673754198236666049581934127476199560,
  997585314467835906017410454522350410204392400928375701653871575386094238113961637088028510993666105855056572924518435149662655050,
  999017238204525558248839623398349191876927936303832949188498338560388736186681939125013835982343086303745188068691731078512153560,
  999813455426052353620852574833221564672704881453565933308485836523947929469590992383904707354053953801964780592187911010125101140]

/-- `case 124` (Util/Gauss_Legendre_Nodes_and_Weights.hpp:37190-37744), `weights`. -/
def weights124 : List Nat := [
  478718732701399191002667853817859420995401640484692160985624722964314613830016181000000000000000000000000000000000000000000000,
  1114070284032242622848009304817968234255901319880174411528807200061893728891797460000000000000000000000000000000000000000000000,
  1749653889368095289730421366656323501245419893251145166189192181323168055251457990000000000000000000000000000000000000000000000,
  2384205267335008503654505609167881694084466204398004600650312630590328635676635200000000000000000000000000000000000000000000000,
  3017255036223248832204022830078442813237340206333032195533837508806867397508425200000000000000000000000000000000000000000000000,
  3648388626966189200248894885460045796256446651845975912569819870993413938504862500000000000000000000000000000000000000000000000,
  4277201143267863075227583144027155559565553816001659425717045490821698078686168400000000000000000000000000000000000000000000000,
  4903291179825393029864173327105531404603629763809951946057486130196544299452041600000000000000000000000000000000000000000000000,
  5526259684642904287244220466822540519772990758916517787403219169653529516069404800000000000000000000000000000000000000000000000,
  6145709820873861560921507655631414257778729653866648269335635602709630076997447400000000000000000000000000000000000000000000000,
  6761247086964722570939207907168999479919398990131414977740313409794417262248718250000000000000000000000000000000000000000000000,
  7372479516595690937231781289234394380339009220662387237446867972219691125933312900000000000000000000000000000000000000000000000,
  7979017906260441321032483426667499450034606090337452895266891249829744670150345670000000000000000000000000000000000000000000000,
  8580476052821740006056471303621625643753323379687448051628614823013714325178714620000000000000000000000000000000000000000000000,
  9176470994292407194379851306458003894977890961005986125907253178603470211772937110000000000000000000000000000000000000000000000,
  9766623250966806509659533254302910831702369239252356437256065988552055413420526779000000000000000000000000000000000000000000000,
  10350557065540021640005972749689392631616690847077179334864160963893006685804047410000000000000000000000000000000000000000000000,
  10927900641489693534055634398783018593913258850231025637494480687475973152574641922000000000000000000000000000000000000000000000,
  11498286379283175368763491271970262757506646881192644218574774325299780513747298784200000000000000000000000000000000000000000000,
  12061351110110340893658592864142779288102624970804269303263047596464917098943891549800000000000000000000000000000000000000000000,
  12616736326911988367729048016440881587585484642405486139995437616758056348080672715300000000000000000000000000000000000000000000,
  13164088412510929696007368615511794616956664649220961710314885840346160597915089743710000000000000000000000000000000000000000000,
  13703058864673848197698965582521217670675892901660531960438649680243149731413762804369000000000000000000000000000000000000000000,
  14233304517944663456305020711643689903368300608316565658722423502352626876026729007768000000000000000000000000000000000000000000,
  14754487762098357853638618183115589699068484131072412687960818841811026922753706666727900000000000000000000000000000000000000000,
  15266276757070014325490245453272093181774197269487019935675838838331233240712851107368200000000000000000000000000000000000000000,
  15768345644218266628994748912208964729485683223790861769933162459523247366564879134412470000000000000000000000000000000000000000,
  16260374753786064851283515075438144239783819354391887799999335658905997988082202733208549000000000000000000000000000000000000000,
  16742050808424944598053796355457552882359543784287671561294450808155843213759710790071102000000000000000000000000000000000000000,
  17213067122652051469871758853622747684948139626495300022489386966521796018699367811215501100000000000000000000000000000000000000,
  17673123798112126853630306585702709900152424439131678881829188915536458714113653467043672960000000000000000000000000000000000000,
  18121927914519574868802622561464001882971173425742988364146767021593564487920420421954610577000000000000000000000000000000000000,
  18559193716158644834392740556402566911330298869825179800164646239003618150059104995263730520000000000000000000000000000000000000,
  18984642793822704102619875333908218914381899405847016449113839411800164193444519145266576059200000000000000000000000000000000000,
  19398004262076557951227099641370599094015327343216800516925936930897145999258628929171261848430000000000000000000000000000000000,
  19799014931728805733899859798683040463844644101537721862875296297120608230409749293299388798413000000000000000000000000000000000,
  20187419477404311081187375204162024477532908485998729794278319162362211924140112477312751341051400000000000000000000000000000000,
  20562970600110011552303746585817047949024166619774464028600798854252985338100079518173001929964920000000000000000000000000000000,
  20925429184690501057889208331350788197060011004099565282715612880952237834511009301321050576349352000000000000000000000000000000,
  21274564452073086814150725950326282166863391204026910341500528342416492920118560578877768369186224800000000000000000000000000000,
  21610154106205351021494140036286260732875942813573706903115382784403033178245490104558088277133341940000000000000000000000000000,
  21931984475591634848709897367488102989955566295442722253664109975527273896183839218192449931075343517000000000000000000000000000,
  22239850649338307251841546851478105775714954674233023196046232535929658316402580733706822308746706697500000000000000000000000000,
  22533556607621182012713735336310894361575671115987825115107209996484615831817857740618705606974096268320000000000000000000000000,
  22812915346492001304527339860255125692608378692927690885121051107993163160723085146241903269327832076309000000000000000000000000,
  23077748996944511097819842974101703348939110848217097340896706940021611735546102642702107668854047210305300000000000000000000000,
  23327888938164310717079472332215805935060299438724182682416562524123506182134085730764674611790666462469910000000000000000000000,
  23563175904890363667914586289338441924773173132448141004281985822502989488592153610135442014137645779041994500000000000000000000,
  23783460088819807228943124299973304190242808811559629319589953024517562860396221148438411740480478563491226030000000000000000000,
  23988601233991491936190491494255006353218390141303042051155171933616046809209654356251459622091986124873269327000000000000000000,
  24178468726087516627267397446055558373481468731240770368534892240145810635973962490046093136266651995885981975300000000000000000,
  24352941675595897763203038508204706199324620175565138702748251383346273600720509595000090323863977559049459433277000000000000000,
  24511908994781420877032099236782018734941133397764732510808045850012095588378540135554908040771013308700260120178800000000000000,
  24655269468415664748231919407116987671480496421825584495802176086069091656036704519015259757743787956780221728994720000000000000,
  24782931818221162781361416539935227274752152130959588256582602561572358370101129262796059391490586814028886541258549900000000000,
  24894814760988668561710180987055537199895561184117111264699005625257430285498007971210156765922381054252200191716350340000000000,
  24990847060330521134580817219639831650505105616267728876045554463659541596777313296084838016439616885960842297826068539000000000,
  25070967572037157652841854159323587418009669495019068848945609334394693329043831574800739072438466515716662726559727199940000000,
  25135125283007894087402821551876125965165000125698450460086436096392488135075828738782137807590350974862862989923975875539000000,
  25183279343731186110164336685720113761607475803203609322962069162214855961038796814410555731999850907211518531468282210207550000,
  25215399094293689438780038329982761647369661480012141768738338537814914577218868810587890948527424779851435070517085113816125000,
  25231464083901559266284230562560786491659205044409293708263877041848199908157934058519008235582851556971334939192625233121707530,
  25231464083901559266284230562560786491659205044409293708263877041848199908157934058519008235582851556971334939192625233121707530,
  25215399094293689438780038329982761647369661480012141768738338537814914577218868810587890948527424779851435070517085113816125000,
  25183279343731186110164336685720113761607475803203609322962069162214855961038796814410555731999850907211518531468282210207550000,
  25135125283007894087402821551876125965165000125698450460086436096392488135075828738782137807590350974862862989923975875539000000,
  25070967572037157652841854159323587418009669495019068848945609334394693329043831574800739072438466515716662726559727199940000000,
  24990847060330521134580817219639831650505105616267728876045554463659541596777313296084838016439616885960842297826068539000000000,
  24894814760988668561710180987055537199895561184117111264699005625257430285498007971210156765922381054252200191716350340000000000,
  24782931818221162781361416539935227274752152130959588256582602561572358370101129262796059391490586814028886541258549900000000000,
  24655269468415664748231919407116987671480496421825584495802176086069091656036704519015259757743787956780221728994720000000000000,
  24511908994781420877032099236782018734941133397764732510808045850012095588378540135554908040771013308700260120178800000000000000,
  24352941675595897763203038508204706199324620175565138702748251383346273600720509595000090323863977559049459433277000000000000000,
  24178468726087516627267397446055558373481468731240770368534892240145810635973962490046093136266651995885981975300000000000000000,
  23988601233991491936190491494255006353218390141303042051155171933616046809209654356251459622091986124873269327000000000000000000,
  23783460088819807228943124299973304190242808811559629319589953024517562860396221148438411740480478563491226030000000000000000000,
  23563175904890363667914586289338441924773173132448141004281985822502989488592153610135442014137645779041994500000000000000000000,
  23327888938164310717079472332215805935060299438724182682416562524123506182134085730764674611790666462469910000000000000000000000,
  23077748996944511097819842974101703348939110848217097340896706940021611735546102642702107668854047210305300000000000000000000000,
  22812915346492001304527339860255125692608378692927690885121051107993163160723085146241903269327832076309000000000000000000000000,
  22533556607621182012713735336310894361575671115987825115107209996484615831817857740618705606974096268320000000000000000000000000,
  22239850649338307251841546851478105775714954674233023196046232535929658316402580733706822308746706697500000000000000000000000000,
  21931984475591634848709897367488102989955566295442722253664109975527273896183839218192449931075343517000000000000000000000000000,
  21610154106205351021494140036286260732875942813573706903115382784403033178245490104558088277133341940000000000000000000000000000,
  21274564452073086814150725950326282166863391204026910341500528342416492920118560578877768369186224800000000000000000000000000000,
  20925429184690501057889208331350788197060011004099565282715612880952237834511009301321050576349352000000000000000000000000000000,
  20562970600110011552303746585817047949024166619774464028600798854252985338100079518173001929964920000000000000000000000000000000,
  20187419477404311081187375204162024477532908485998729794278319162362211924140112477312751341051400000000000000000000000000000000,
  19799014931728805733899859798683040463844644101537721862875296297120608230409749293299388798413000000000000000000000000000000000,
  19398004262076557951227099641370599094015327343216800516925936930897145999258628929171261848430000000000000000000000000000000000,
  18984642793822704102619875333908218914381899405847016449113839411800164193444519145266576059200000000000000000000000000000000000,
  18559193716158644834392740556402566911330298869825179800164646239003618150059104995263730520000000000000000000000000000000000000,
  18121927914519574868802622561464001882971173425742988364146767021593564487920420421954610577000000000000000000000000000000000000,
  17673123798112126853630306585702709900152424439131678881829188915536458714113653467043672960000000000000000000000000000000000000,
  17213067122652051469871758853622747684948139626495300022489386966521796018699367811215501100000000000000000000000000000000000000,
  16742050808424944598053796355457552882359543784287671561294450808155843213759710790071102000000000000000000000000000000000000000,
  16260374753786064851283515075438144239783819354391887799999335658905997988082202733208549000000000000000000000000000000000000000,
  15768345644218266628994748912208964729485683223790861769933162459523247366564879134412470000000000000000000000000000000000000000,
  15266276757070014325490245453272093181774197269487019935675838838331233240712851107368200000000000000000000000000000000000000000,
  14754487762098357853638618183115589699068484131072412687960818841811026922753706666727900000000000000000000000000000000000000000,
  14233304517944663456305020711643689903368300608316565658722423502352626876026729007768000000000000000000000000000000000000000000,
  13703058864673848197698965582521217670675892901660531960438649680243149731413762804369000000000000000000000000000000000000000000,
  13164088412510929696007368615511794616956664649220961710314885840346160597915089743710000000000000000000000000000000000000000000,
  12616736326911988367729048016440881587585484642405486139995437616758056348080672715300000000000000000000000000000000000000000000,
  12061351110110340893658592864142779288102624970804269303263047596464917098943891549800000000000000000000000000000000000000000000,
  11498286379283175368763491271970262757506646881192644218574774325299780513747298784200000000000000000000000000000000000000000000,
  10927900641489693534055634398783018593913258850231025637494480687475973152574641922000000000000000000000000000000000000000000000,
  10350557065540021640005972749689392631616690847077179334864160963893006685804047410000000000000000000000000000000000000000000000,
  9766623250966806509659533254302910831702369239252356437256065988552055413420526779000000000000000000000000000000000000000000000,
  9176470994292407194379851306458003894977890961005986125907253178603470211772937110000000000000000000000000000000000000000000000,
  8580476052821740006056471303621625643753323379687448051628614823013714325178714620000000000000000000000000000000000000000000000,
  7979017906260441321032483426667499450034606090337452895266891249829744670150345670000000000000000000000000000000000000000000000,
  7372479516595690937231781289234394380339009220662387237446867972219691125933312900000000000000000000000000000000000000000000000,
  6761247086964722570939207907168999479919398990131414977740313409794417262248718250000000000000000000000000000000000000000000000,
  6145709820873861560921507655631414257778729653866648269335635602709630076997447400000000000000000000000000000000000000000000000,
  5526259684642904287244220466822540519772990758916517787403219169653529516069404800000000000000000000000000000000000000000000000,
  4903291179825393029864173327105531404603629763809951946057486130196544299452041600000000000000000000000000000000000000000000000,
  4277201143267863075227583144027155559565553816001659425717045490821698078686168400000000000000000000000000000000000000000000000,
  3648388626966189200248894885460045796256446651845975912569819870993413938504862500000000000000000000000000000000000000000000000,
  3017255036223248832204022830078442813237340206333032195533837508806867397508425200000000000000000000000000000000000000000000000,
  2384205267335008503654505609167881694084466204398004600650312630590328635676635200000000000000000000000000000000000000000000000,
  1749653889368095289730421366656323501245419893251145166189192181323168055251457990000000000000000000000000000000000000000000000,
  1114070284032242622848009304817968234255901319880174411528807200061893728891797460000000000000000000000000000000000000000000000,
  478718732701399191002667853817859420995401640484692160985624722964314613830016181000000000000000000000000000000000000000000000]

/-- `case 125` (Util/Gauss_Legendre_Nodes_and_Weights.hpp:37746-38302), `nodes`. -/
def nodes125 : List Int := [
  -999816416297768517157846332345281448116144484835233556541981535525623592169919425990007591004728188232306443490243083393488118990,
  -999032834752976438602660322105496617629832430449459495087151622930094173124136354980620978606741049995715669512991892944275290560,
  -997623626810961577580324291807969522829419379532811657990707181266237632952280069046223598290461951706938690216819576585365900330,
  -995589362252162796605374642633807783201104351051935936210293926786697436467731145437754061939005931536758448793630220943319874060,
  -992931277366602511233626780027353740148710342609190748649636719424749186235492418259889707505433566022214229694373143264674914350,
  -989651028538750625248681465777272060941528220817747448666164062241847141097422883059443030332509776910480187351940834255579642750,
  -985750668112487196927395517029790317342218549008538007681297345211870144655568143948578492997742628583642458406195112538651786530,
  -981232638799859882111398977041728961921275210179834574949136879441481263843652040394885176420032498330935930082427673065997881100,
  -976099771006108914879232932736549852331145899700305225303179256187132725308458555344110341571933484092247413850082730096124644740,
  -970355280675475480096088861926246933251590285837423468220749758488770558270308609131063353660580423846889153600153587842614740820,
  -964002767128004571285791210404161736239772026113884943121249946321720920524384540421809778960153054788536606184274939516077787180,
  -957046210739497133386993628835990494385035309362825938388732530558471037051076106838925466637053771594180912743387078855622284540,
  -949489970416460617716321078879036490880514437545050578046928389502244074857537442645725124541305375010317035192715568947843907340,
  -941338780848915489406317381637454984919067436446500559701188260110569175247441016096150256306692736478053665311142725203232812280,
  -932597749534970739510734785811403113013684450898418418817040308070133456503974556184807531882133197825545521417595284765625404160,
  -923272353575503819729972864108748604215527339065166224882733383553121284422671165639950007214673621663347489192006142168910466760,
  -913368436239248849347364657412551930615300310884496445651444872129179674683258625195976306798964956778365849077203693445299118680,
  -902892203299574637576571001535634830830464604083245634977721778202885067445315290710361310192342147131920888426779576241920574420,
  -891850219144781293878805905736413051423455616949079149967027559176400863063289455425390106815929088848986383151003330150877486660,
  -880249402664092134303204529055372469611205145609022867402494473160803551544973491637989954372474946909761254734931564903730152930,
  -868097022911767844502907896402620064182593069468010186247043471572370887049161515312446204100224109060882949316999315143647015240,
  -855400694551969580139886708551880804116907714578323411711125213804933052495757944618395275670743838014079666445131721875487180090,
  -842168373087169798143371125115723420426032246687503413808242561267907877516967255988970731304356795399015571007530959666657686350,
  -828408349873065721920536277559208623908242591496203321064016955720145228457088220021056107299311865151972976154945011041482045020,
  -814129246923096528683310510641697276448955897536236088104150032460432986487287286997389051080416076950184135545349169198387864430,
  -799340011505804883088373537905700011994759810180714227477164398712884095101279405374058122390211610849755996941920990051310935980,
  -784049910538418132260687242197884055641309904664786208188295053840969601866314553289306331092116317002672593249719876203142156270,
  -768268524780155330016808420935316794762542097920818393158723280323301608813599898284137783622033940391213502684195825594296575200,
  -752005742828893836229546101255535129346369613906896747818682784419214471286436334780809945215438354006061274190660605843689374460,
  -735271754924953851262594064279975605636021818204945796510495490209230375559041211793804707766165139218583353927495485815625836490,
  -718077046565881058218719921832633951550675841345742266808987360774441003735040119221944919949686643472492905213203680374394205170,
  -700432391936226632729048274834545759819684456673215164314423145849896094518601429114281536325755406370809532640276438410047753930,
  -682348847156440263657758403728338971578665747117283933745798977943321143779348955280202269856677450657428564530854684018883954830,
  -663837743355105498677517195222145316484358197115500697271592519441385773751630392686104109393639832128613644773589107009822559710,
  -644910679568857656710015487334701473053176561116690654765433154890144822449726755281188431682704843099953024780970834667943006840,
  -625579515474432693186098070391355512856520663392862096767854614045471861421609971013559553138401969446059205724528497405308650830,
  -605856363957400715184288533279128032519769961863798807957148130008211770330466601296141582453085624254963512476856969855931141840,
  -585753583522240268813692874732843407490025191906517128211326860728633582751038891257579443846369123081281133997169319493454971450,
  -565283770548509005606581175322816481145272370098067732521442981787814743023235614305765640609297006471231379968628891426364293220,
  -544459751397962822213048440996729494369463662691659538054000667759365988498973463104458399670991473208744503533815409168953080950,
  -523294574377569002409707876279499656950916404192050010818549561459758175939119002781728901778600357365759566595147058871583751820,
  -501801501563449217042507946316539612600192720461042460717863200054681342169718908755390458998782404543321607997079050833675330720,
  -479994000490875401766941934302351527859410848694115871640365012567113400586046243381914460695096443745651715989254309908089110490,
  -457885735715525481420833338787858861264598364884735406471225100347620738497050683018617094529751467600810942933053299543697631110,
  -435490560251286592221400131618483877243269722839166671998950957973356907185091138424595000062799783324602156999917938979918558820,
  -412822506889970819096512419508170242296352034150647137013853777379051542186353063536952844688168350048705477575284916040897770730,
  -389895779408382467558729749040282358668583037297923621090974363209750107276947250193483063029300784982440086439434101328112617810,
  -366724743668246481763720900988210609627833866172827813544500348317888238733174004611028566534014736778160169178309471991082882180,
  -343323918614574758925243417998383760295422495856962696141107458484464821482123282528150172350958827946229487768223721649687454560,
  -319707967178110753319839944082537026457067185788995718619331618239119709119208507398504592905587638997450052674726169612741250760,
  -295891687087552871058332935846788544202127256233164715546944240597709468860723887257842965427735594765376032379682672867181883200,
  -271890001597313692142639246597759709910673554608030126754684430019946241232178640760090419253314317521308445979791758937587076760,
  -247717950136624983778375946680282222258290368894483917359080018193013439277350547058982809880124042884408355458308057844971823270,
  -223390678885847755419294628799597874513468767370699615366886223181541634724694211638452759547127567275031494147380441895375048280,
  -198923431285892220779845644038854143874271866942012620003965306834586419462993529836748266683819779252442504155500243327996422290,
  -174331538486694446550862977607201136994810006870815661685951050443076049990885844736066896057165402291407918313069445370880415590,
  -149630409740734655578767181944250752313078919526751020858881765161069639187472039251280941465269106192262137803639902476153974610,
  -124835522747616589933163190619675175586767746145403707198912434416101517875228425621524919400493330516122098163724922770981655680,
  -99962413955758005044986976407480285532969376624566969897288781538923098225121596653947560173148443119245758001041282602320700707,
  -75026668827269240757810658328005693613913457042250803036944990249947307706582358068246744315273447121468724230937803441020576188,
  -50043912072119881878974402666141482898310911915934287130299692989892818483624292776673386191584021243267729684551142103362911481,
  -25029797857712765206923589633909701772730069554238798159992315406326640329581368805313707541046563585049156206841747358150606548,
  0,
  25029797857712765206923589633909701772730069554238798159992315406326640329581368805313707541046563585049156206841747358150606548,
  50043912072119881878974402666141482898310911915934287130299692989892818483624292776673386191584021243267729684551142103362911481,
  75026668827269240757810658328005693613913457042250803036944990249947307706582358068246744315273447121468724230937803441020576188,
  99962413955758005044986976407480285532969376624566969897288781538923098225121596653947560173148443119245758001041282602320700707,
  124835522747616589933163190619675175586767746145403707198912434416101517875228425621524919400493330516122098163724922770981655680,
  149630409740734655578767181944250752313078919526751020858881765161069639187472039251280941465269106192262137803639902476153974610,
  174331538486694446550862977607201136994810006870815661685951050443076049990885844736066896057165402291407918313069445370880415590,
  198923431285892220779845644038854143874271866942012620003965306834586419462993529836748266683819779252442504155500243327996422290,
  223390678885847755419294628799597874513468767370699615366886223181541634724694211638452759547127567275031494147380441895375048280,
  247717950136624983778375946680282222258290368894483917359080018193013439277350547058982809880124042884408355458308057844971823270,
  271890001597313692142639246597759709910673554608030126754684430019946241232178640760090419253314317521308445979791758937587076760,
  295891687087552871058332935846788544202127256233164715546944240597709468860723887257842965427735594765376032379682672867181883200,
  319707967178110753319839944082537026457067185788995718619331618239119709119208507398504592905587638997450052674726169612741250760,
  343323918614574758925243417998383760295422495856962696141107458484464821482123282528150172350958827946229487768223721649687454560,
  366724743668246481763720900988210609627833866172827813544500348317888238733174004611028566534014736778160169178309471991082882180,
  389895779408382467558729749040282358668583037297923621090974363209750107276947250193483063029300784982440086439434101328112617810,
  412822506889970819096512419508170242296352034150647137013853777379051542186353063536952844688168350048705477575284916040897770730,
  435490560251286592221400131618483877243269722839166671998950957973356907185091138424595000062799783324602156999917938979918558820,
  457885735715525481420833338787858861264598364884735406471225100347620738497050683018617094529751467600810942933053299543697631110,
  479994000490875401766941934302351527859410848694115871640365012567113400586046243381914460695096443745651715989254309908089110490,
  501801501563449217042507946316539612600192720461042460717863200054681342169718908755390458998782404543321607997079050833675330720,
  523294574377569002409707876279499656950916404192050010818549561459758175939119002781728901778600357365759566595147058871583751820,
  544459751397962822213048440996729494369463662691659538054000667759365988498973463104458399670991473208744503533815409168953080950,
  565283770548509005606581175322816481145272370098067732521442981787814743023235614305765640609297006471231379968628891426364293220,
  585753583522240268813692874732843407490025191906517128211326860728633582751038891257579443846369123081281133997169319493454971450,
  605856363957400715184288533279128032519769961863798807957148130008211770330466601296141582453085624254963512476856969855931141840,
  625579515474432693186098070391355512856520663392862096767854614045471861421609971013559553138401969446059205724528497405308650830,
  644910679568857656710015487334701473053176561116690654765433154890144822449726755281188431682704843099953024780970834667943006840,
  663837743355105498677517195222145316484358197115500697271592519441385773751630392686104109393639832128613644773589107009822559710,
  682348847156440263657758403728338971578665747117283933745798977943321143779348955280202269856677450657428564530854684018883954830,
  700432391936226632729048274834545759819684456673215164314423145849896094518601429114281536325755406370809532640276438410047753930,
  718077046565881058218719921832633951550675841345742266808987360774441003735040119221944919949686643472492905213203680374394205170,
  735271754924953851262594064279975605636021818204945796510495490209230375559041211793804707766165139218583353927495485815625836490,
  752005742828893836229546101255535129346369613906896747818682784419214471286436334780809945215438354006061274190660605843689374460,
  768268524780155330016808420935316794762542097920818393158723280323301608813599898284137783622033940391213502684195825594296575200,
  784049910538418132260687242197884055641309904664786208188295053840969601866314553289306331092116317002672593249719876203142156270,
  799340011505804883088373537905700011994759810180714227477164398712884095101279405374058122390211610849755996941920990051310935980,
  814129246923096528683310510641697276448955897536236088104150032460432986487287286997389051080416076950184135545349169198387864430,
  828408349873065721920536277559208623908242591496203321064016955720145228457088220021056107299311865151972976154945011041482045020,
  842168373087169798143371125115723420426032246687503413808242561267907877516967255988970731304356795399015571007530959666657686350,
  855400694551969580139886708551880804116907714578323411711125213804933052495757944618395275670743838014079666445131721875487180090,
  868097022911767844502907896402620064182593069468010186247043471572370887049161515312446204100224109060882949316999315143647015240,
  880249402664092134303204529055372469611205145609022867402494473160803551544973491637989954372474946909761254734931564903730152930,
  891850219144781293878805905736413051423455616949079149967027559176400863063289455425390106815929088848986383151003330150877486660,
  902892203299574637576571001535634830830464604083245634977721778202885067445315290710361310192342147131920888426779576241920574420,
  913368436239248849347364657412551930615300310884496445651444872129179674683258625195976306798964956778365849077203693445299118680,
  923272353575503819729972864108748604215527339065166224882733383553121284422671165639950007214673621663347489192006142168910466760,
  932597749534970739510734785811403113013684450898418418817040308070133456503974556184807531882133197825545521417595284765625404160,
  941338780848915489406317381637454984919067436446500559701188260110569175247441016096150256306692736478053665311142725203232812280,
  949489970416460617716321078879036490880514437545050578046928389502244074857537442645725124541305375010317035192715568947843907340,
  957046210739497133386993628835990494385035309362825938388732530558471037051076106838925466637053771594180912743387078855622284540,
  964002767128004571285791210404161736239772026113884943121249946321720920524384540421809778960153054788536606184274939516077787180,
  970355280675475480096088861926246933251590285837423468220749758488770558270308609131063353660580423846889153600153587842614740820,
  976099771006108914879232932736549852331145899700305225303179256187132725308458555344110341571933484092247413850082730096124644740,
  981232638799859882111398977041728961921275210179834574949136879441481263843652040394885176420032498330935930082427673065997881100,
  985750668112487196927395517029790317342218549008538007681297345211870144655568143948578492997742628583642458406195112538651786530,
  989651028538750625248681465777272060941528220817747448666164062241847141097422883059443030332509776910480187351940834255579642750,
  992931277366602511233626780027353740148710342609190748649636719424749186235492418259889707505433566022214229694373143264674914350,
  995589362252162796605374642633807783201104351051935936210293926786697436467731145437754061939005931536758448793630220943319874060,
  997623626810961577580324291807969522829419379532811657990707181266237632952280069046223598290461951706938690216819576585365900330,
  999032834752976438602660322105496617629832430449459495087151622930094173124136354980620978606741049995715669512991892944275290560,
  999816416297768517157846332345281448116144484835233556541981535525623592169919425990007591004728188232306443490243083393488118990]

/-- `case 125` (Util/Gauss_Legendre_Nodes_and_Weights.hpp:37746-38302), `weights`. -/
def weights125 : List Nat := [
  471120648493523968277597324593009781399738707950814564136219239528121429544969993000000000000000000000000000000000000000000000,
  1096392705586993828041930051448623049117982356111912669824760428095932545226526630000000000000000000000000000000000000000000000,
  1721904207888471245219698033787330432323994702982892271652493366070351557038610000000000000000000000000000000000000000000000000,
  2346417253673789574831601592513171913074458736757249437075471721721288848949682500000000000000000000000000000000000000000000000,
  2969476201558052896785828823460423791654345973560655301036124438877622271531034000000000000000000000000000000000000000000000000,
  3590679322824512641787612654205013546761475549884153219045658016064780696010483800000000000000000000000000000000000000000000000,
  4209634370126698889171296303386658614021613262771011611443730628419564550117731100000000000000000000000000000000000000000000000,
  4825952485939443880681117518081558849292010267873382165067846133269404211302650900000000000000000000000000000000000000000000000,
  5439247075079588904894586886944977284397448843227331132338130822838730601975119600000000000000000000000000000000000000000000000,
  6049133660940339101099652873548909953454874932901794740783360271547200758296094700000000000000000000000000000000000000000000000,
  6655229995985136770765177815215017569086536184995099079100157919969446903960269200000000000000000000000000000000000000000000000,
  7257156250837616691340587640097080356961979761658608451484098920914634068790159400000000000000000000000000000000000000000000000,
  7854535230644736852486559661449096306761141907216842827178389464374102342164208010000000000000000000000000000000000000000000000,
  8446992601337622739677120958843203159075162378374533345561664375361380559758284600000000000000000000000000000000000000000000000,
  9034157119153902850521089898179642231902576448295536278302826329665143807221343050000000000000000000000000000000000000000000000,
  9615660860599458533334759181475285543452211209069758463129261269347311602768292370000000000000000000000000000000000000000000000,
  10191139451515406217946713480521245982031827044179030074725694425373690297868232654000000000000000000000000000000000000000000000,
  10760232294543733867555943425388305977631100628155537061979729185218117147235963349000000000000000000000000000000000000000000000,
  11322582794568039345237214259037766532791754745110929610719808198036514612951165535000000000000000000000000000000000000000000000,
  11877838581841214087597021975694481312768707045765882692943752780381064663981861675400000000000000000000000000000000000000000000,
  12425651732580314186915835720648655746009350664942458801082862242050740123336398839400000000000000000000000000000000000000000000,
  12965678986845310054042290911639413495912147466460284507596591663227841935006484753320000000000000000000000000000000000000000000,
  13497581963538952185451719486971453940353515838666259308593261311378398671579828621830000000000000000000000000000000000000000000,
  14021027372377324994650251359736058495748841943489351015334201121964614703190413176043000000000000000000000000000000000000000000,
  14535687222688621319855931270376077185323814660232857150778128042182004208056823091552000000000000000000000000000000000000000000,
  15041239028903242810673854346274869375835710593253016984084301872691079065577021380557200000000000000000000000000000000000000000,
  15537366012602576949751222003653855278095637115711102547712983538744610720567538439838610000000000000000000000000000000000000000,
  16023757300997303548533321854887239226873255362610063784370098247224963799717072616069130000000000000000000000000000000000000000,
  16500108121709171552007521847816492692702157217324161742232345953705213711532419142399394000000000000000000000000000000000000000,
  16966119993733051135114080236374915513262645936937955530226337803021437778177228783367933600000000000000000000000000000000000000,
  17421500914458818476582214601371501377415803761850360969889905022071752681465611941469028200000000000000000000000000000000000000,
  17865965542635338437850782366076644831497200733693889512243885313444746618868445129832618120000000000000000000000000000000000000,
  18299235377161514447634041152411598518695274995191499970024795817646186578273176645754666679000000000000000000000000000000000000,
  18721038931592100166037697039666856543392390208061311187083451260485697272149693405061825918200000000000000000000000000000000000,
  19131111904248729276862595936785180835608182367236615773077384761422220362087155056699705518070000000000000000000000000000000000,
  19529197343829427318441817307984387513597799052074671205913931073076549896547020982219169877600000000000000000000000000000000000,
  19915045810412728289931603456805996201693151378940325571005176954186155929602018708400846973885000000000000000000000000000000000,
  20288415531755431888261342076848846217530691105814132475663412127709006795706982901466300477395000000000000000000000000000000000,
  20649072554786006063657285937102161851126307653109679973046075650432709922546124501357133574452600000000000000000000000000000000,
  20996790892198664483997059895606477630347759287063616696279880885483003443721593674100423849861245000000000000000000000000000000,
  21331352664056229102783153437015938376876029410041574556448722368296724283410458294533214854128252100000000000000000000000000000,
  21652548234313023466785559881778959067982511481025346642586969051218758230033840227519473883513293370000000000000000000000000000,
  21960176342172231462187459245731234577816386718663539616405906964964240866678502674890293747168990649000000000000000000000000000,
  22254044228195397416536991201710224677804616281777435803613925943066052788073598812925928279034734735500000000000000000000000000,
  22533967755085035198629190870699675577860273560070244037460816067040830055566913432055691559213774954833000000000000000000000000,
  22799771523064654402848733613813482997172423404881641374876851538525653186934313146648455478114217051581200000000000000000000000,
  23051288979783898976343176111668457883340633229253388223224631542722590656101070793887439332503404457189380000000000000000000000,
  23288362524679925771751595011655735182124741339874743349851204446393534003844858463986856488202560943253677000000000000000000000,
  23510843607729625443635371560977187574682539470789458102999532979431766559935661325532604298015985141978275300000000000000000000,
  23718592822530803757116384576782326435350317064791590958324134123620428982876465622680992681868322737650194830000000000000000000,
  23911479993653995600543552300722463156080537727172769534565171305743847145366225532547499197108438494093992768300000000000000000,
  24089384258210174609180568895283025174826463230298892044998219789620483830410687012726181039648232073895123576130000000000000000,
  24252194141583246098967526628105589254495127842573087732730963548050522268203611215224753900313343146362657640734000000000000000,
  24399807627279867733735002614879727660243864767815363709885327987173851098306132988196532935398953283001561162224540000000000000,
  24532132220852828735040441988729012851451318320929299681128940816297122467494753358306056705154125715959862032491030000000000000,
  24649085007857932197020823716818189592627087238788278425495256275469966138432974644167647356065204279253982608907092700000000000,
  24750592705808063874616382568293403951025679659282252604017631135171109872812578443735721225667883882861118098328240372000000000,
  24836591710091892339152106845232873682471703855828693259957895172121233580137750395900946956705215153953287040827352969400000000,
  24907028133828427291228809662768453126186351371980693045237682189827351832697283711386816552785595349363821689996295340097000000,
  24961857841632462723516105303767410591555399281340760535561197945971955508492093084889099913664122671223297754397903610823600000,
  25001046477269747159226599982668050330399772206763120047067499765057289070240215487129835920389558776061511212266295131579162000,
  25024569485184551968955875728116011893232761859144886027189489664032760637399688061911219292334262231908072869316941070038971500,
  25032412125886148393386018171746163450821765294812741965207681565917178484297176871805190823148429098842765360065225162237153210,
  25024569485184551968955875728116011893232761859144886027189489664032760637399688061911219292334262231908072869316941070038971500,
  25001046477269747159226599982668050330399772206763120047067499765057289070240215487129835920389558776061511212266295131579162000,
  24961857841632462723516105303767410591555399281340760535561197945971955508492093084889099913664122671223297754397903610823600000,
  24907028133828427291228809662768453126186351371980693045237682189827351832697283711386816552785595349363821689996295340097000000,
  24836591710091892339152106845232873682471703855828693259957895172121233580137750395900946956705215153953287040827352969400000000,
  24750592705808063874616382568293403951025679659282252604017631135171109872812578443735721225667883882861118098328240372000000000,
  24649085007857932197020823716818189592627087238788278425495256275469966138432974644167647356065204279253982608907092700000000000,
  24532132220852828735040441988729012851451318320929299681128940816297122467494753358306056705154125715959862032491030000000000000,
  24399807627279867733735002614879727660243864767815363709885327987173851098306132988196532935398953283001561162224540000000000000,
  24252194141583246098967526628105589254495127842573087732730963548050522268203611215224753900313343146362657640734000000000000000,
  24089384258210174609180568895283025174826463230298892044998219789620483830410687012726181039648232073895123576130000000000000000,
  23911479993653995600543552300722463156080537727172769534565171305743847145366225532547499197108438494093992768300000000000000000,
  23718592822530803757116384576782326435350317064791590958324134123620428982876465622680992681868322737650194830000000000000000000,
  23510843607729625443635371560977187574682539470789458102999532979431766559935661325532604298015985141978275300000000000000000000,
  23288362524679925771751595011655735182124741339874743349851204446393534003844858463986856488202560943253677000000000000000000000,
  23051288979783898976343176111668457883340633229253388223224631542722590656101070793887439332503404457189380000000000000000000000,
  22799771523064654402848733613813482997172423404881641374876851538525653186934313146648455478114217051581200000000000000000000000,
  22533967755085035198629190870699675577860273560070244037460816067040830055566913432055691559213774954833000000000000000000000000,
  22254044228195397416536991201710224677804616281777435803613925943066052788073598812925928279034734735500000000000000000000000000,
  21960176342172231462187459245731234577816386718663539616405906964964240866678502674890293747168990649000000000000000000000000000,
  21652548234313023466785559881778959067982511481025346642586969051218758230033840227519473883513293370000000000000000000000000000,
  21331352664056229102783153437015938376876029410041574556448722368296724283410458294533214854128252100000000000000000000000000000,
  20996790892198664483997059895606477630347759287063616696279880885483003443721593674100423849861245000000000000000000000000000000,
  20649072554786006063657285937102161851126307653109679973046075650432709922546124501357133574452600000000000000000000000000000000,
  20288415531755431888261342076848846217530691105814132475663412127709006795706982901466300477395000000000000000000000000000000000,
  19915045810412728289931603456805996201693151378940325571005176954186155929602018708400846973885000000000000000000000000000000000,
  19529197343829427318441817307984387513597799052074671205913931073076549896547020982219169877600000000000000000000000000000000000,
  19131111904248729276862595936785180835608182367236615773077384761422220362087155056699705518070000000000000000000000000000000000,
  18721038931592100166037697039666856543392390208061311187083451260485697272149693405061825918200000000000000000000000000000000000,
  18299235377161514447634041152411598518695274995191499970024795817646186578273176645754666679000000000000000000000000000000000000,
  17865965542635338437850782366076644831497200733693889512243885313444746618868445129832618120000000000000000000000000000000000000,
  17421500914458818476582214601371501377415803761850360969889905022071752681465611941469028200000000000000000000000000000000000000,
  16966119993733051135114080236374915513262645936937955530226337803021437778177228783367933600000000000000000000000000000000000000,
  16500108121709171552007521847816492692702157217324161742232345953705213711532419142399394000000000000000000000000000000000000000,
  16023757300997303548533321854887239226873255362610063784370098247224963799717072616069130000000000000000000000000000000000000000,
  15537366012602576949751222003653855278095637115711102547712983538744610720567538439838610000000000000000000000000000000000000000,
  15041239028903242810673854346274869375835710593253016984084301872691079065577021380557200000000000000000000000000000000000000000,
  14535687222688621319855931270376077185323814660232857150778128042182004208056823091552000000000000000000000000000000000000000000,
  14021027372377324994650251359736058495748841943489351015334201121964614703190413176043000000000000000000000000000000000000000000,
  13497581963538952185451719486971453940353515838666259308593261311378398671579828621830000000000000000000000000000000000000000000,
  12965678986845310054042290911639413495912147466460284507596591663227841935006484753320000000000000000000000000000000000000000000,
  12425651732580314186915835720648655746009350664942458801082862242050740123336398839400000000000000000000000000000000000000000000,
  11877838581841214087597021975694481312768707045765882692943752780381064663981861675400000000000000000000000000000000000000000000,
  11322582794568039345237214259037766532791754745110929610719808198036514612951165535000000000000000000000000000000000000000000000,
  10760232294543733867555943425388305977631100628155537061979729185218117147235963349000000000000000000000000000000000000000000000,
  10191139451515406217946713480521245982031827044179030074725694425373690297868232654000000000000000000000000000000000000000000000,
  9615660860599458533334759181475285543452211209069758463129261269347311602768292370000000000000000000000000000000000000000000000,
  9034157119153902850521089898179642231902576448295536278302826329665143807221343050000000000000000000000000000000000000000000000,
  8446992601337622739677120958843203159075162378374533345561664375361380559758284600000000000000000000000000000000000000000000000,
  7854535230644736852486559661449096306761141907216842827178389464374102342164208010000000000000000000000000000000000000000000000,
  7257156250837616691340587640097080356961979761658608451484098920914634068790159400000000000000000000000000000000000000000000000,
  6655229995985136770765177815215017569086536184995099079100157919969446903960269200000000000000000000000000000000000000000000000,
  6049133660940339101099652873548909953454874932901794740783360271547200758296094700000000000000000000000000000000000000000000000,
  5439247075079588904894586886944977284397448843227331132338130822838730601975119600000000000000000000000000000000000000000000000,
  4825952485939443880681117518081558849292010267873382165067846133269404211302650900000000000000000000000000000000000000000000000,
  4209634370126698889171296303386658614021613262771011611443730628419564550117731100000000000000000000000000000000000000000000000,
  3590679322824512641787612654205013546761475549884153219045658016064780696010483800000000000000000000000000000000000000000000000,
  2969476201558052896785828823460423791654345973560655301036124438877622271531034000000000000000000000000000000000000000000000000,
  2346417253673789574831601592513171913074458736757249437075471721721288848949682500000000000000000000000000000000000000000000000,
  1721904207888471245219698033787330432323994702982892271652493366070351557038610000000000000000000000000000000000000000000000000,
  1096392705586993828041930051448623049117982356111912669824760428095932545226526630000000000000000000000000000000000000000000000,
  471120648493523968277597324593009781399738707950814564136219239528121429544969993000000000000000000000000000000000000000000000]

/-- `case 126` (Util/Gauss_Legendre_Nodes_and_Weights.hpp:38304-38866), `nodes`. -/
def nodes126 : List Int := [
  -999819307232403229156621079234093134301533073034804944501490854358619141540841532898872684561980461530201634397729093848524640890,
  -999048062967566771976783476361245867744602640443925592069544473430820181772018811074473787093983232930191669193191115908526919770,
  -997661034635958984708277027913145242669450884696495778051746350867578665291723570698430567903411102938252280794742803005730268070,
  -995658769367920792537617925879435771453017731438864460205224901277144850794466981526944031097557785229104700557220620277212916790,
  -993042464250968043469453875942784690073888489445344031563236628540639691903115529571011388528250137813359819613634369799844939820,
  -989813723819738610024867428930107602213463494601061072142581299947956529509913452454893412441991715153908266347050790202420840760,
  -985974536333100395775604566689607338829163959320005914456679968158801382764216816279230802691974047758110730616836419761859500120,
  -981527268310511732421720695651554483609964691051056960447188979565994010780764330718314719877748588999483371331387521691427613030,
  -976474661946172961500688202122736479675594662258240020102234153194666852683262719734748716326934010730364110493808103720504408850,
  -970819833043165499899350303102856423893669802179101554026932290881529221184864069735833129753017602379323443548938430703097927590,
  -964566268946081880563624942882952051623794301314521792491441260979460204686571981417480764429375193083526805291631764399296796850,
  -957717826326572192858459299330239149304062634914589312487298422986531765232073531157693412067358460884446461274571691926242609220,
  -950278728774349842890715934442696980081739802731680412535955920043430172036012422206510777021479486457239638743930834034999931180,
  -942253564176712863126575117581378602033250450823807914815836848423470225471326243653942901165332336379030331321480164179694189380,
  -933647281880511688846336621185413430191229571821409233630120404550452281874956126633514243797920742287244020941047091579665174770,
  -924465189634840385526935740825469486333405707695771258543360179636463888944374763665858335143433029635782308819785903962002601170,
  -914712950314659158866102011750377002277007980071196507365512401512562749695985786988536611303527997529930153646938852523464736660,
  -904396578426511766802251440616404999794426020620679976828244061514403874705976212086182438267710677829822117164611463313263565380,
  -893522436398033636461168855410185444103545844074474571009040321716408019518388664155521914109960199237936452989118176261028373120,
  -882097230653282603712896079757948223222839831997249847914840936032620176110989378477820268371383568075621997389710942126721667880,
  -870128007476164255025149258177999179187934597582282864646104669125269067062381503291473451934927839125839429302505116446686024690,
  -857622148664414273599411745547606249476672683058232780128702896702471477997441706732706193080681798477236644255724720848199223820,
  -844587366976763543718487406163755800219550399146560970694384399401507840351581232887116088180992492817645573477496726385102795640,
  -831031701376059475332100764763498407076439283728177156862196834161946692123772537601415400877981118416624373243427176339798194250,
  -816963512071255062966636239816071136246879802529060919218855302828635892933248064822771886987234504507900981750438829971457851790,
  -802391475361308817914838711125352400045277810064957665814533130020631098804323433452928969275367202189827658982502356147306243490,
  -787324578284165690610101572324703294614214787540047415350827276138668752557778144689578522906931461204657363162372563755882374060,
  -771772113074112427000918243075664238319999979409253539031818944299172683753217960060738114303709983989911178313747708444719663350,
  -755743671430921037857478126439373646907725183385060676145218360873022971207900437508571195774908050678886617092434030830828605600,
  -739249138604311513365476863687911663011904009076715316706098819019040584305698971849052668344738738038049908852081813590632306520,
  -722298687297379751894233047198564680309556018363983333552236934845921366711373854980869879217605015589915394222234010702646920260,
  -704902771392748969915001865953401884914659567898636795344198757657984744706511812961686689652936215730868250232807937739155362960,
  -687072119505312646011020888059782139399153152377798678715513465802624008591396451883925298275149025655433796201156182300428258110,
  -668817728365544320252380358832441069876707085542745068233267301794577403707745359989158058389196063009458425168222681594982794050,
  -650150856037454295839543004150097103473090741912592512162057389002133988592177273887344864416141746354163869534686199181405031510,
  -631083014975375435789289199539217719405768879377895562034081247682116404893865024986989091247896356219291482646460333922160852420,
  -611625964923859769234793169263331283663874291937744873814311795565542327644036892072149597289795917504506053119293363987222130660,
  -591791705665064471099034162407910668137313573521919481331019987792557608305876056778557837466170550190323394469691491274492852540,
  -571592469618099904672982168461179442135236380568691043424117392421075780421059277427414687087257927927757741045016341318125110840,
  -551040714294903767208069163838184748725919677208264386991788259778315779820519630386432618458529788710147776360273634027241109100,
  -530149114617293902129467220393827049979240984416211028709275415547839547153763952713665982518679047274865046140792819087980182710,
  -508930555099937986488185538487382800350238158519184779498666431077376382228583185658629464065867986564189525694488108468836158160,
  -487398121904061018283763467004627855349548447521650867111688313276971298299047007958834218357600323071888873175616365919197136670,
  -465565094766791265975343447275673389302741782031756852620150097048753325189142860182620739020836527528416769418081661206029861460,
  -443444938811122053918616466182387062562597200730574646499309317037772397529816833838598730094694940174943030958690474164462336520,
  -421051296241540396226927810592227815748708856613136165636494748008259631176096056216169052107404825657192106187752249402103045420,
  -398397977930444012926587042079256824930733878032375158041901988325985083220723292109601664903012441382616510049979509750586191510,
  -375498954900535623281582724449266073517049558975270497940090896167435192395531117453123609154421402097648351908681325217010628290,
  -352368349708447570647733878382573721480665567885060924547127380217101656846984294846568576135080209500321689138279952973034944430,
  -329020427734910751908624699443296161605007666555630041424932036003203021639673930420229431638646379893165324698924419945966909950,
  -305469588386839465102536856422200492331950310181344950014481510882704068218331767541401534766251711032412254350078277103062178790,
  -281730356216758115897597517207028625598615363201877616534813211430126508907260300979900789082204087995816670313659670144617707220,
  -257817371965046703742112774958321293039179679952363503630595078695949046669072107216761469691956360383294664433204439438591464200,
  -233745383530529610473202499572776861639499701457738428796530934575126742520560024208913478787080046870421378208123344963641685770,
  -209529236874976408634441441960171751392937371878487087629993898105871066582311021480171915798133485443771188063369702532444583760,
  -185183866867124166541032373784036447465518027967304186264677405465357705365426073834680772953473759991855882603146347715431815530,
  -160724288071868027152383036170247241981306694297309327140771126814439996303694424818545960351872679955165512345602585501732809250,
  -136165585490300655103125307615971547952065368014995136937756423943837970269575218973857345906437505083498173639374561521520189190,
  -111522905256311459980369249493586017830531278404187937527451980948084691368688953423115449897983774704419755427604152461142764650,
  -86811445295483295447169977825867459104626920102252743608628617919362655962815367266018303732040894360459139884102863766368563138,
  -62046445952047586596584967604650157865157804378924682083188288903984166785003063274738465568592838424069418602243567112515584941,
  -37243180589678537652247217902879597807826835602116655662452945997356099357042544611682860085581826904570775881856537295097113418,
  -12416946171923206672782458620059546837007362112816100569082231433529778629413649022747473267948054230331090612145589500708644663,
  12416946171923206672782458620059546837007362112816100569082231433529778629413649022747473267948054230331090612145589500708644663,
  37243180589678537652247217902879597807826835602116655662452945997356099357042544611682860085581826904570775881856537295097113418,
  62046445952047586596584967604650157865157804378924682083188288903984166785003063274738465568592838424069418602243567112515584941,
  86811445295483295447169977825867459104626920102252743608628617919362655962815367266018303732040894360459139884102863766368563138,
  111522905256311459980369249493586017830531278404187937527451980948084691368688953423115449897983774704419755427604152461142764650,
  136165585490300655103125307615971547952065368014995136937756423943837970269575218973857345906437505083498173639374561521520189190,
  160724288071868027152383036170247241981306694297309327140771126814439996303694424818545960351872679955165512345602585501732809250,
  185183866867124166541032373784036447465518027967304186264677405465357705365426073834680772953473759991855882603146347715431815530,
  209529236874976408634441441960171751392937371878487087629993898105871066582311021480171915798133485443771188063369702532444583760,
  233745383530529610473202499572776861639499701457738428796530934575126742520560024208913478787080046870421378208123344963641685770,
  257817371965046703742112774958321293039179679952363503630595078695949046669072107216761469691956360383294664433204439438591464200,
  281730356216758115897597517207028625598615363201877616534813211430126508907260300979900789082204087995816670313659670144617707220,
  305469588386839465102536856422200492331950310181344950014481510882704068218331767541401534766251711032412254350078277103062178790,
  329020427734910751908624699443296161605007666555630041424932036003203021639673930420229431638646379893165324698924419945966909950,
  352368349708447570647733878382573721480665567885060924547127380217101656846984294846568576135080209500321689138279952973034944430,
  375498954900535623281582724449266073517049558975270497940090896167435192395531117453123609154421402097648351908681325217010628290,
  398397977930444012926587042079256824930733878032375158041901988325985083220723292109601664903012441382616510049979509750586191510,
  421051296241540396226927810592227815748708856613136165636494748008259631176096056216169052107404825657192106187752249402103045420,
  443444938811122053918616466182387062562597200730574646499309317037772397529816833838598730094694940174943030958690474164462336520,
  465565094766791265975343447275673389302741782031756852620150097048753325189142860182620739020836527528416769418081661206029861460,
  487398121904061018283763467004627855349548447521650867111688313276971298299047007958834218357600323071888873175616365919197136670,
  508930555099937986488185538487382800350238158519184779498666431077376382228583185658629464065867986564189525694488108468836158160,
  530149114617293902129467220393827049979240984416211028709275415547839547153763952713665982518679047274865046140792819087980182710,
  551040714294903767208069163838184748725919677208264386991788259778315779820519630386432618458529788710147776360273634027241109100,
  571592469618099904672982168461179442135236380568691043424117392421075780421059277427414687087257927927757741045016341318125110840,
  591791705665064471099034162407910668137313573521919481331019987792557608305876056778557837466170550190323394469691491274492852540,
  611625964923859769234793169263331283663874291937744873814311795565542327644036892072149597289795917504506053119293363987222130660,
  631083014975375435789289199539217719405768879377895562034081247682116404893865024986989091247896356219291482646460333922160852420,
  650150856037454295839543004150097103473090741912592512162057389002133988592177273887344864416141746354163869534686199181405031510,
  668817728365544320252380358832441069876707085542745068233267301794577403707745359989158058389196063009458425168222681594982794050,
  687072119505312646011020888059782139399153152377798678715513465802624008591396451883925298275149025655433796201156182300428258110,
  704902771392748969915001865953401884914659567898636795344198757657984744706511812961686689652936215730868250232807937739155362960,
  722298687297379751894233047198564680309556018363983333552236934845921366711373854980869879217605015589915394222234010702646920260,
  739249138604311513365476863687911663011904009076715316706098819019040584305698971849052668344738738038049908852081813590632306520,
  755743671430921037857478126439373646907725183385060676145218360873022971207900437508571195774908050678886617092434030830828605600,
  771772113074112427000918243075664238319999979409253539031818944299172683753217960060738114303709983989911178313747708444719663350,
  787324578284165690610101572324703294614214787540047415350827276138668752557778144689578522906931461204657363162372563755882374060,
  802391475361308817914838711125352400045277810064957665814533130020631098804323433452928969275367202189827658982502356147306243490,
  816963512071255062966636239816071136246879802529060919218855302828635892933248064822771886987234504507900981750438829971457851790,
  831031701376059475332100764763498407076439283728177156862196834161946692123772537601415400877981118416624373243427176339798194250,
  844587366976763543718487406163755800219550399146560970694384399401507840351581232887116088180992492817645573477496726385102795640,
  857622148664414273599411745547606249476672683058232780128702896702471477997441706732706193080681798477236644255724720848199223820,
  870128007476164255025149258177999179187934597582282864646104669125269067062381503291473451934927839125839429302505116446686024690,
  882097230653282603712896079757948223222839831997249847914840936032620176110989378477820268371383568075621997389710942126721667880,
  893522436398033636461168855410185444103545844074474571009040321716408019518388664155521914109960199237936452989118176261028373120,
  904396578426511766802251440616404999794426020620679976828244061514403874705976212086182438267710677829822117164611463313263565380,
  914712950314659158866102011750377002277007980071196507365512401512562749695985786988536611303527997529930153646938852523464736660,
  924465189634840385526935740825469486333405707695771258543360179636463888944374763665858335143433029635782308819785903962002601170,
  933647281880511688846336621185413430191229571821409233630120404550452281874956126633514243797920742287244020941047091579665174770,
  942253564176712863126575117581378602033250450823807914815836848423470225471326243653942901165332336379030331321480164179694189380,
  950278728774349842890715934442696980081739802731680412535955920043430172036012422206510777021479486457239638743930834034999931180,
  957717826326572192858459299330239149304062634914589312487298422986531765232073531157693412067358460884446461274571691926242609220,
  964566268946081880563624942882952051623794301314521792491441260979460204686571981417480764429375193083526805291631764399296796850,
  970819833043165499899350303102856423893669802179101554026932290881529221184864069735833129753017602379323443548938430703097927590,
  976474661946172961500688202122736479675594662258240020102234153194666852683262719734748716326934010730364110493808103720504408850,
  981527268310511732421720695651554483609964691051056960447188979565994010780764330718314719877748588999483371331387521691427613030,
  985974536333100395775604566689607338829163959320005914456679968158801382764216816279230802691974047758110730616836419761859500120,
  989813723819738610024867428930107602213463494601061072142581299947956529509913452454893412441991715153908266347050790202420840760,
  993042464250968043469453875942784690073888489445344031563236628540639691903115529571011388528250137813359819613634369799844939820,
  995658769367920792537617925879435771453017731438864460205224901277144850794466981526944031097557785229104700557220620277212916790,
  997661034635958984708277027913145242669450884696495778051746350867578665291723570698430567903411102938252280794742803005730268070,
  999048062967566771976783476361245867744602640443925592069544473430820181772018811074473787093983232930191669193191115908526919770,
  999819307232403229156621079234093134301533073034804944501490854358619141540841532898872684561980461530201634397729093848524640890]

/-- `case 126` (Util/Gauss_Legendre_Nodes_and_Weights.hpp:38304-38866), `weights`. -/
def weights126 : List Nat := [
  463702027112163045664420591183916829888373764493646279774993113053682241703462800000000000000000000000000000000000000000000000,
  1079132518622290037087069040900839457737103248308461233119638851338764659212596600000000000000000000000000000000000000000000000,
  1694809327401272946840733746942129866184252851756026228011636002151938920778875000000000000000000000000000000000000000000000000,
  2309520112118194134938620393124239256420898968527747823104813567440653698057303800000000000000000000000000000000000000000000000,
  2922822452037272761993414465978629815096026149717532954068553572852413946578769100000000000000000000000000000000000000000000000,
  3534326961760510180268587614963242742934165994743533321232531945007321239936116000000000000000000000000000000000000000000000000,
  4143653552132725691210603128075146290736431819645701392378319328092035728208110000000000000000000000000000000000000000000000000,
  4750425427153884860665652214939838238649444345978096641280871603403484830612700000000000000000000000000000000000000000000000000,
  5354267966826940844576966703666457198626856426482302029178923195312211644459541500000000000000000000000000000000000000000000000,
  5954808578275018266870476221391457138482104375071775522663226706413128155783021000000000000000000000000000000000000000000000000,
  6551676797168232215270900619036871278517171008774966295575284212441166747273780900000000000000000000000000000000000000000000000,
  7144504466569933085182047493312161026864139799745222136084727418587093807894925100000000000000000000000000000000000000000000000,
  7732925942694517672379995680315678272910496814669976559879353109129092153697539800000000000000000000000000000000000000000000000,
  8316578310481726343190111249835857892081272932269085476156198582622601254994710900000000000000000000000000000000000000000000000,
  8895101602462400620762727696579282446579302754174496550676084067553347299948839610000000000000000000000000000000000000000000000,
  9468139018144687681149940805129909052045041763583171657180477251880817694005922290000000000000000000000000000000000000000000000,
  10035337142614068614990106365957711689705709339228733979192172497041980330296190570000000000000000000000000000000000000000000000,
  10596346163658228998407838340648048504616960212208883227854090856566264877339773529000000000000000000000000000000000000000000000,
  11150820087006275186202098622837656483392786024827155418988207167409216710300234819000000000000000000000000000000000000000000000,
  11698416949404974020844414987973407961387942470360571773699992575622177890974821018000000000000000000000000000000000000000000000,
  12238799029321920763004589839062937255819820163119161142359584271387553281251061325400000000000000000000000000000000000000000000,
  12771633055101315487386446964058615686565511514878699670880259840887239524812479456200000000000000000000000000000000000000000000,
  13296590410418146237668950564891361707763352109900330862446167936911890262148841433050000000000000000000000000000000000000000000,
  13813347336888607667127692724883401175869732691198685250034009409950723152814537291130000000000000000000000000000000000000000000,
  14321585133702304478360632900180552299751689879119329477863491924284074086060346455349000000000000000000000000000000000000000000,
  14820990354147154258322456720189259685911010058952576320139333881287308518095592513249300000000000000000000000000000000000000000,
  15311254998901958690986970420028838915357473650385065405330217962424039835155281808001900000000000000000000000000000000000000000,
  15792076705974930093537099267443345426224872473495893907123590951255470714337946148094180000000000000000000000000000000000000000,
  16263158937169366059142328709730498295794430029372373737070224414382364753629895699347552000000000000000000000000000000000000000,
  16724211160960346047706257804926261423793486734643387865529554579672768176919944873450625000000000000000000000000000000000000000,
  17174949031668890490909338426492018028568460860728315673005185072039729163861405352949897300000000000000000000000000000000000000,
  17615094564822541605990455662634393811161664727613116942657547020850479386767302895307393110000000000000000000000000000000000000,
  18044376308593835908165291419537597448709107893712733839844915300339937175754855025614296690000000000000000000000000000000000000,
  18462529511210666068228624494837149063472810707070298943055707871804732727041539825904806876000000000000000000000000000000000000,
  18869296284235089460520593155119455652785211005344108574875894575187147518373325536729854178600000000000000000000000000000000000,
  19264425761609741750295611559485454909700123353061904204132575377513698747513688984801272201040000000000000000000000000000000000,
  19647674254373661697109379679363735883506110556652096118629100343276892394664983103228893643931000000000000000000000000000000000,
  20018805400952031111069535836512066838601603401223306956722405042288822037270912807173240459133300000000000000000000000000000000,
  20377590312927083124539525170411300496627426336887365175844053506151237632884128329169917579773970000000000000000000000000000000,
  20723807716200233118001771922325603320513698221271306919393013527447304597218576513032745915494410000000000000000000000000000000,
  21057244087458339541453653635079848936794924365281873675243575881938121771979873005518486683308255700000000000000000000000000000,
  21377693785859905790423795902990088548417527653180049525248344868383554316484270097439783388357367740000000000000000000000000000,
  21684959179859988175092501259952946413994554779224837876292038919504985855948810605551235126142109105000000000000000000000000000,
  21978850769095577564309956617462888074148267856706969537312086295088246764054792559183128343220600014900000000000000000000000000,
  22259187301256272017320208678163736596277402209818664445261694644041669378055922198032840306690424049730000000000000000000000000,
  22525795883868153025296889313025852935181421030703582365791672185112470752858742250123775545905976766480000000000000000000000000,
  22778512090921917161174865197687039036876209440270039952920428686625336194376889583053397574128940685876900000000000000000000000,
  23017180064279496188887974626514392247671940493592319814645863810648296101046730293960032423914181042851530000000000000000000000,
  23241652609796620157394750419030403316000869047605540765122287547403489761083053912678013550153895990718374800000000000000000000,
  23451791288102037793969548012310328194556770061999510412073227104889801495750502742285302597843815312133693540000000000000000000,
  23647466499977404664688038073401974879408108961288815368946833280727902123668881957674586401409750170463580263000000000000000000,
  23828557566285180100233256391300641827434247578446598458271172800474381580813190008944921864062626998443282449400000000000000000,
  23994952802395236772389752029866504218402320482939948942040580108914982027714960833967617705609338753120215990717000000000000000,
  24146549587064280003112309397329626287084375090616326133923406672538219604648617820461812465924915603425059266641200000000000000,
  24283254425725595321318819303522902347802518004721637011398190664009341093776108650880527439155438282856689419990580000000000000,
  24404983008150090358041452831272212738377503364998979012947809904372503644546376842687488482253937078285016947704660200000000000,
  24511660260443068774168152893395081224479656344012297190224763162964923127125914758135739965506176698822051545481546130000000000,
  24603220391344667415157794164097723841752120444936300656156184628099190050665675633412798166674071324751773136704114111000000000,
  24679606932805401136744108396875566884350324401864727712383484906315035205332088647470842268558140698122763018138351176130000000,
  24740772774811790583965501250753153777747515121605249209826762364670526818422598644007065924932654933711648375849863806226000000,
  24786680194440594460055617671548132240027470264972551559596452863410342085418300726936318766809797089071124107130242982964760000,
  24817300879123727308580972987477954113070046245562168553127298731160537421536347379362075422461191225700143889449182321826079000,
  24832615944109514359649801722034672550789829322453868334208911535443335306057471226094277051679835272628340796434393431656371680,
  24832615944109514359649801722034672550789829322453868334208911535443335306057471226094277051679835272628340796434393431656371680,
  24817300879123727308580972987477954113070046245562168553127298731160537421536347379362075422461191225700143889449182321826079000,
  24786680194440594460055617671548132240027470264972551559596452863410342085418300726936318766809797089071124107130242982964760000,
  24740772774811790583965501250753153777747515121605249209826762364670526818422598644007065924932654933711648375849863806226000000,
  24679606932805401136744108396875566884350324401864727712383484906315035205332088647470842268558140698122763018138351176130000000,
  24603220391344667415157794164097723841752120444936300656156184628099190050665675633412798166674071324751773136704114111000000000,
  24511660260443068774168152893395081224479656344012297190224763162964923127125914758135739965506176698822051545481546130000000000,
  24404983008150090358041452831272212738377503364998979012947809904372503644546376842687488482253937078285016947704660200000000000,
  24283254425725595321318819303522902347802518004721637011398190664009341093776108650880527439155438282856689419990580000000000000,
  24146549587064280003112309397329626287084375090616326133923406672538219604648617820461812465924915603425059266641200000000000000,
  23994952802395236772389752029866504218402320482939948942040580108914982027714960833967617705609338753120215990717000000000000000,
  23828557566285180100233256391300641827434247578446598458271172800474381580813190008944921864062626998443282449400000000000000000,
  23647466499977404664688038073401974879408108961288815368946833280727902123668881957674586401409750170463580263000000000000000000,
  23451791288102037793969548012310328194556770061999510412073227104889801495750502742285302597843815312133693540000000000000000000,
  23241652609796620157394750419030403316000869047605540765122287547403489761083053912678013550153895990718374800000000000000000000,
  23017180064279496188887974626514392247671940493592319814645863810648296101046730293960032423914181042851530000000000000000000000,
  22778512090921917161174865197687039036876209440270039952920428686625336194376889583053397574128940685876900000000000000000000000,
  22525795883868153025296889313025852935181421030703582365791672185112470752858742250123775545905976766480000000000000000000000000,
  22259187301256272017320208678163736596277402209818664445261694644041669378055922198032840306690424049730000000000000000000000000,
  21978850769095577564309956617462888074148267856706969537312086295088246764054792559183128343220600014900000000000000000000000000,
  21684959179859988175092501259952946413994554779224837876292038919504985855948810605551235126142109105000000000000000000000000000,
  21377693785859905790423795902990088548417527653180049525248344868383554316484270097439783388357367740000000000000000000000000000,
  21057244087458339541453653635079848936794924365281873675243575881938121771979873005518486683308255700000000000000000000000000000,
  20723807716200233118001771922325603320513698221271306919393013527447304597218576513032745915494410000000000000000000000000000000,
  20377590312927083124539525170411300496627426336887365175844053506151237632884128329169917579773970000000000000000000000000000000,
  20018805400952031111069535836512066838601603401223306956722405042288822037270912807173240459133300000000000000000000000000000000,
  19647674254373661697109379679363735883506110556652096118629100343276892394664983103228893643931000000000000000000000000000000000,
  19264425761609741750295611559485454909700123353061904204132575377513698747513688984801272201040000000000000000000000000000000000,
  18869296284235089460520593155119455652785211005344108574875894575187147518373325536729854178600000000000000000000000000000000000,
  18462529511210666068228624494837149063472810707070298943055707871804732727041539825904806876000000000000000000000000000000000000,
  18044376308593835908165291419537597448709107893712733839844915300339937175754855025614296690000000000000000000000000000000000000,
  17615094564822541605990455662634393811161664727613116942657547020850479386767302895307393110000000000000000000000000000000000000,
  17174949031668890490909338426492018028568460860728315673005185072039729163861405352949897300000000000000000000000000000000000000,
  16724211160960346047706257804926261423793486734643387865529554579672768176919944873450625000000000000000000000000000000000000000,
  16263158937169366059142328709730498295794430029372373737070224414382364753629895699347552000000000000000000000000000000000000000,
  15792076705974930093537099267443345426224872473495893907123590951255470714337946148094180000000000000000000000000000000000000000,
  15311254998901958690986970420028838915357473650385065405330217962424039835155281808001900000000000000000000000000000000000000000,
  14820990354147154258322456720189259685911010058952576320139333881287308518095592513249300000000000000000000000000000000000000000,
  14321585133702304478360632900180552299751689879119329477863491924284074086060346455349000000000000000000000000000000000000000000,
  13813347336888607667127692724883401175869732691198685250034009409950723152814537291130000000000000000000000000000000000000000000,
  13296590410418146237668950564891361707763352109900330862446167936911890262148841433050000000000000000000000000000000000000000000,
  12771633055101315487386446964058615686565511514878699670880259840887239524812479456200000000000000000000000000000000000000000000,
  12238799029321920763004589839062937255819820163119161142359584271387553281251061325400000000000000000000000000000000000000000000,
  11698416949404974020844414987973407961387942470360571773699992575622177890974821018000000000000000000000000000000000000000000000,
  11150820087006275186202098622837656483392786024827155418988207167409216710300234819000000000000000000000000000000000000000000000,
  10596346163658228998407838340648048504616960212208883227854090856566264877339773529000000000000000000000000000000000000000000000,
  10035337142614068614990106365957711689705709339228733979192172497041980330296190570000000000000000000000000000000000000000000000,
  9468139018144687681149940805129909052045041763583171657180477251880817694005922290000000000000000000000000000000000000000000000,
  8895101602462400620762727696579282446579302754174496550676084067553347299948839610000000000000000000000000000000000000000000000,
  8316578310481726343190111249835857892081272932269085476156198582622601254994710900000000000000000000000000000000000000000000000,
  7732925942694517672379995680315678272910496814669976559879353109129092153697539800000000000000000000000000000000000000000000000,
  7144504466569933085182047493312161026864139799745222136084727418587093807894925100000000000000000000000000000000000000000000000,
  6551676797168232215270900619036871278517171008774966295575284212441166747273780900000000000000000000000000000000000000000000000,
  5954808578275018266870476221391457138482104375071775522663226706413128155783021000000000000000000000000000000000000000000000000,
  5354267966826940844576966703666457198626856426482302029178923195312211644459541500000000000000000000000000000000000000000000000,
  4750425427153884860665652214939838238649444345978096641280871603403484830612700000000000000000000000000000000000000000000000000,
  4143653552132725691210603128075146290736431819645701392378319328092035728208110000000000000000000000000000000000000000000000000,
  3534326961760510180268587614963242742934165994743533321232531945007321239936116000000000000000000000000000000000000000000000000,
  2922822452037272761993414465978629815096026149717532954068553572852413946578769100000000000000000000000000000000000000000000000,
  2309520112118194134938620393124239256420898968527747823104813567440653698057303800000000000000000000000000000000000000000000000,
  1694809327401272946840733746942129866184252851756026228011636002151938920778875000000000000000000000000000000000000000000000000,
  1079132518622290037087069040900839457737103248308461233119638851338764659212596600000000000000000000000000000000000000000000000,
  463702027112163045664420591183916829888373764493646279774993113053682241703462800000000000000000000000000000000000000000000000]

/-- `case 127` (Util/Gauss_Legendre_Nodes_and_Weights.hpp:38868-39432), `nodes`. -/
def nodes127 : List Int := [
  -999822130415306146267351164573415643302031072277590854172469924239693814263915768952861296753345859086213787105212408645945575060,
  -999062934355311895138315883195343681735020011347927361707026437904669353395725128050023524554603531501925723097828712469270953480,
  -997697566189804621074417024898349351682867849253372753660509582685986973977567753362065790818747657824811349706585185419233051070,
  -995726551352027226635433370395443745831184188197243751467820975826756991053460028754021811217428979927515338669924501167713518490,
  -993151049254517147361130794867882535229821699780699680775594234595896595186120029697541698429906268793697743149373057333551538140,
  -989972614591484157607786699673697427625170284587383227162914623869942818953849913498762672849384167091335583396510782108023736140,
  -986193174016931666710438331753874985096913694587497905262186290384407763586145412796645820462708942429024378866102377743462266620,
  -981815020803814110033463124511976409536933411225768039455727796007000922470651966735852694273132409286121600781186875874589084300,
  -976840812343070326817443918862203197545938797069755866122773176789302515157983771813095058022778043823598056147427583348896462760,
  -971273568161529192288946898305117894823939072668508775119710399556949335437441012265281534158030556425785905766438196133443585800,
  -965116667945292121090825077033912960623672858104695510991920360870297793726628594864730768897242533995769784332597844972602333510,
  -958373849425238771149102869980602192862985821141961444491288014139625761891835543878215674357184447357643052564576578674967281030,
  -951049206077880310547907646596359052778286412804634037540886100444185222678002749207288246179111239353301768683375638286702582980,
  -943147184624814827345449630262009976615575284662478158109109237268147389307706888092962333697374745583518015976007885525650906990,
  -934672582324737968573634877949057333999743739026601413471662176839916518647842529362955929040948149854765054196949234028989198390,
  -925630544056233849127464668142591660772628446178799864988672558392948443705090662824668353894638333532011664680139261968372829030,
  -916026559191465809313088617417159394638552416680460305603372876764171797242782793404076841421013963532560252649669614525277102410,
  -905866458261821382802461317602815578994089592330265538245180981713942715447723863017714559980733124350528947834586372001922254650,
  -895156409417083708969043826424510662760776485723365200264157130167754445087357795956922636147273775974741229080604825539295551660,
  -883902914680026569945257948028489555086679842046525637659208459361950426227572064106635866792991143979596412816353360319586040900,
  -872112805998560711419637534288642506101663397939512438715434141062873934661460408470636984298984108744022147703459614279308005240,
  -859793241097740809812031344144826183268221119274354723315253473711981880662546143664629039168004167750911951890281878736120241290,
  -846951699134097598453339310854367451018053887907648094382227403788436004376793216451499156857688578835097860195504126617600631760,
  -833595976154899514379557164801227502104253980141569405249608585883409152377969320893236457798700155785328544620389021198637102930,
  -819734180365078674155119101674697384943905072146574725381230742716879947387118825738574778959424424864294799731682213608593291070,
  -805374727204680214666560794046442259285744510463639350542012848022251877137153979543470998407272093884589113153774516480388803810,
  -790526334239813799945449952527401339600663857362470866801011402768966053237662008198474694530305407950877391583115915323591476540,
  -775198015870202382444962763545657629285154280387159291423421324045669137536929584466066130574511639103189631768137510609830157150,
  -759399077856536671556663666598100582894118041468666384748162545478457676769259444001703407176873494130261103583271378616936963340,
  -743139111670954512920566889975949001345432180143802481361178472509078399075831119772812716135223389431055893988432252603099375180,
  -726427988674072685535692901532702276947663944514393603380996715123916940523837848852630875596721676013219735067388691586108171130,
  -709275854122104560999444639067573349994109215484135715980582386432371400737790956448969124992261340772716233755854598485440005400,
  -691693121007700670156441432866662084627533471836178039593610156489546872029582078004747341607742175018156374857465450542871751370,
  -673690463738250485346682538316018704919947874730896334940456572198621629060089652847110207376072354840035008357759554520291600730,
  -655278811655482630276765051568523656426436993166635178838499091982093152255012780723954949086438323731541855347279914024616176760,
  -636469342400297241347608156841752197925016295727593121589495985799084548837138922285566726585677717572394372519367165458912225050,
  -617273475126858283857639163408222659980920274596513620819654430446459683952136857891284299295258196431544736952643572989394438200,
  -597702863570065229384412018874776434689892689815090158888621751679971015490242562327207672468463414951364307030638055389579177860,
  -577769388970612580003251657137644671960468294717674864775130057805208031101035039963172595710967995855827105588215965124978767870,
  -557485152861932232921861906878722522109340200251663294395378093916618061530771978797773710396731289965923852450773097351062284470,
  -536862469723397567458166363534523280680859502508254943512643658180916077729609611487990498928425222524815138282272932146951323200,
  -515913859504249357277277299066620664054051169908783536461359899581152170602877649531768600277797029850034842066967317104794519020,
  -494652040022782117394940173686362808835645898251281385823935347741033892621222512255143006176289547155162896239352308974629017820,
  -473089919245405241645099899396985986537054082736052379066514457699638601730729406900799581471461387903184447204352512191543645740,
  -451240587450266227331898580207290595162042991307657138567951801789516117056676382817648605566862324785486414794617533272758000770,
  -429117309280193376262544053554176107065509170669678658506652327515984163921593522599885151516059660299194071713082261449918867940,
  -406733515689782563408672881243391145854228113715409123499729445796426388083077077401202685253894330788348111577498435745844425420,
  -384102795791516935779077814522386651925498510657902176377797227815672494731163318411391107474223573574773439746514178019833480320,
  -361238888605869706070924843467228302777332596553034408555485564998191603520941298218969841454400974196156396374577343186357682940,
  -338155674720398501376000276570953468871038531515283963952596035914287406697520993176834807768453897106938623750419237211153261330,
  -314867167862894981486014753748897957937702819955856247116799352414533775876766475760715483073879650018608118945300812872528575150,
  -291387506393705620794518752845677680983899412876316484803298423848582187931162873437915758674310841991354293082448596242168417990,
  -267730944722388620888343520279376370281548030485714372384619117312162836508374031729571130332446319646919812128254051463127210370,
  -243911844653917857970713244531377617623781153053652103593902695245961881861439147099287050308084462622079222698110831344737890870,
  -219944666669687542454523378669402492365580311553919403484733369286990089023020176182387703433061707124344252586393148182591945370,
  -195843961148610851504281625196103305071438077309532582468673801112103949052285599478027284962310571169821415309786950005626026370,
  -171624359533642165008344922489539100876694736456262850216095868539386656935112932752876754437755846188459210221904661887701059710,
  -147300565449085669389329293198066060339292390223840158982947198838642850033299963519627349659226980012813911744726946978116854990,
  -122887345774082971726033652885668566047885225540786945861511835299291311805432844284279300698089795525705892653871320654750503150,
  -98399521677698970751091751509100902853152591524812041339035214316202566366860537352705843819661205827809673014934963690241551374,
  -73851959621048545273440409360568933619933447633597224423555008426286102808381239450090754362505901271916567256434029072275657823,
  -49259562331926630315379321821926927923466735747033305209053242561731495696283421394580213949428846780474890377533475161667040621,
  -24637259757420944614897071846088223600857524336234717463489612766404166919248730233037088469294316974182482210637083557199126840,
  0,
  24637259757420944614897071846088223600857524336234717463489612766404166919248730233037088469294316974182482210637083557199126840,
  49259562331926630315379321821926927923466735747033305209053242561731495696283421394580213949428846780474890377533475161667040621,
  73851959621048545273440409360568933619933447633597224423555008426286102808381239450090754362505901271916567256434029072275657823,
  98399521677698970751091751509100902853152591524812041339035214316202566366860537352705843819661205827809673014934963690241551374,
  122887345774082971726033652885668566047885225540786945861511835299291311805432844284279300698089795525705892653871320654750503150,
  147300565449085669389329293198066060339292390223840158982947198838642850033299963519627349659226980012813911744726946978116854990,
  171624359533642165008344922489539100876694736456262850216095868539386656935112932752876754437755846188459210221904661887701059710,
  195843961148610851504281625196103305071438077309532582468673801112103949052285599478027284962310571169821415309786950005626026370,
  219944666669687542454523378669402492365580311553919403484733369286990089023020176182387703433061707124344252586393148182591945370,
  243911844653917857970713244531377617623781153053652103593902695245961881861439147099287050308084462622079222698110831344737890870,
  267730944722388620888343520279376370281548030485714372384619117312162836508374031729571130332446319646919812128254051463127210370,
  291387506393705620794518752845677680983899412876316484803298423848582187931162873437915758674310841991354293082448596242168417990,
  314867167862894981486014753748897957937702819955856247116799352414533775876766475760715483073879650018608118945300812872528575150,
  338155674720398501376000276570953468871038531515283963952596035914287406697520993176834807768453897106938623750419237211153261330,
  361238888605869706070924843467228302777332596553034408555485564998191603520941298218969841454400974196156396374577343186357682940,
  384102795791516935779077814522386651925498510657902176377797227815672494731163318411391107474223573574773439746514178019833480320,
  406733515689782563408672881243391145854228113715409123499729445796426388083077077401202685253894330788348111577498435745844425420,
  429117309280193376262544053554176107065509170669678658506652327515984163921593522599885151516059660299194071713082261449918867940,
  451240587450266227331898580207290595162042991307657138567951801789516117056676382817648605566862324785486414794617533272758000770,
  473089919245405241645099899396985986537054082736052379066514457699638601730729406900799581471461387903184447204352512191543645740,
  494652040022782117394940173686362808835645898251281385823935347741033892621222512255143006176289547155162896239352308974629017820,
  515913859504249357277277299066620664054051169908783536461359899581152170602877649531768600277797029850034842066967317104794519020,
  536862469723397567458166363534523280680859502508254943512643658180916077729609611487990498928425222524815138282272932146951323200,
  557485152861932232921861906878722522109340200251663294395378093916618061530771978797773710396731289965923852450773097351062284470,
  577769388970612580003251657137644671960468294717674864775130057805208031101035039963172595710967995855827105588215965124978767870,
  597702863570065229384412018874776434689892689815090158888621751679971015490242562327207672468463414951364307030638055389579177860,
  617273475126858283857639163408222659980920274596513620819654430446459683952136857891284299295258196431544736952643572989394438200,
  636469342400297241347608156841752197925016295727593121589495985799084548837138922285566726585677717572394372519367165458912225050,
  655278811655482630276765051568523656426436993166635178838499091982093152255012780723954949086438323731541855347279914024616176760,
  673690463738250485346682538316018704919947874730896334940456572198621629060089652847110207376072354840035008357759554520291600730,
  691693121007700670156441432866662084627533471836178039593610156489546872029582078004747341607742175018156374857465450542871751370,
  709275854122104560999444639067573349994109215484135715980582386432371400737790956448969124992261340772716233755854598485440005400,
  726427988674072685535692901532702276947663944514393603380996715123916940523837848852630875596721676013219735067388691586108171130,
  743139111670954512920566889975949001345432180143802481361178472509078399075831119772812716135223389431055893988432252603099375180,
  759399077856536671556663666598100582894118041468666384748162545478457676769259444001703407176873494130261103583271378616936963340,
  775198015870202382444962763545657629285154280387159291423421324045669137536929584466066130574511639103189631768137510609830157150,
  790526334239813799945449952527401339600663857362470866801011402768966053237662008198474694530305407950877391583115915323591476540,
  805374727204680214666560794046442259285744510463639350542012848022251877137153979543470998407272093884589113153774516480388803810,
  819734180365078674155119101674697384943905072146574725381230742716879947387118825738574778959424424864294799731682213608593291070,
  833595976154899514379557164801227502104253980141569405249608585883409152377969320893236457798700155785328544620389021198637102930,
  846951699134097598453339310854367451018053887907648094382227403788436004376793216451499156857688578835097860195504126617600631760,
  859793241097740809812031344144826183268221119274354723315253473711981880662546143664629039168004167750911951890281878736120241290,
  872112805998560711419637534288642506101663397939512438715434141062873934661460408470636984298984108744022147703459614279308005240,
  883902914680026569945257948028489555086679842046525637659208459361950426227572064106635866792991143979596412816353360319586040900,
  895156409417083708969043826424510662760776485723365200264157130167754445087357795956922636147273775974741229080604825539295551660,
  905866458261821382802461317602815578994089592330265538245180981713942715447723863017714559980733124350528947834586372001922254650,
  916026559191465809313088617417159394638552416680460305603372876764171797242782793404076841421013963532560252649669614525277102410,
  925630544056233849127464668142591660772628446178799864988672558392948443705090662824668353894638333532011664680139261968372829030,
  934672582324737968573634877949057333999743739026601413471662176839916518647842529362955929040948149854765054196949234028989198390,
  943147184624814827345449630262009976615575284662478158109109237268147389307706888092962333697374745583518015976007885525650906990,
  951049206077880310547907646596359052778286412804634037540886100444185222678002749207288246179111239353301768683375638286702582980,
  958373849425238771149102869980602192862985821141961444491288014139625761891835543878215674357184447357643052564576578674967281030,
  965116667945292121090825077033912960623672858104695510991920360870297793726628594864730768897242533995769784332597844972602333510,
  971273568161529192288946898305117894823939072668508775119710399556949335437441012265281534158030556425785905766438196133443585800,
  976840812343070326817443918862203197545938797069755866122773176789302515157983771813095058022778043823598056147427583348896462760,
  981815020803814110033463124511976409536933411225768039455727796007000922470651966735852694273132409286121600781186875874589084300,
  986193174016931666710438331753874985096913694587497905262186290384407763586145412796645820462708942429024378866102377743462266620,
  989972614591484157607786699673697427625170284587383227162914623869942818953849913498762672849384167091335583396510782108023736140,
  993151049254517147361130794867882535229821699780699680775594234595896595186120029697541698429906268793697743149373057333551538140,
  995726551352027226635433370395443745831184188197243751467820975826756991053460028754021811217428979927515338669924501167713518490,
  997697566189804621074417024898349351682867849253372753660509582685986973977567753362065790818747657824811349706585185419233051070,
  999062934355311895138315883195343681735020011347927361707026437904669353395725128050023524554603531501925723097828712469270953480,
  999822130415306146267351164573415643302031072277590854172469924239693814263915768952861296753345859086213787105212408645945575060]

/-- `case 127` (Util/Gauss_Legendre_Nodes_and_Weights.hpp:38868-39432), `weights`. -/
def weights127 : List Nat := [
  456457261095866627919365192649105388039534590662632800257011214611242960185481670000000000000000000000000000000000000000000000,
  1062276686953848695965235985320931883496070546158346553100672763596247581640345400000000000000000000000000000000000000000000000,
  1668348812517193676102886291474957193249108909036695241995074774067098853074193400000000000000000000000000000000000000000000000,
  2273486070749254780281084077636574013956566421072695747226703352969300688410210000000000000000000000000000000000000000000000000,
  2877258765628900408288319751354801082275112950634768007029027972606073929647898000000000000000000000000000000000000000000000000,
  3479289381005146590891089410025208911597704185689477715946223066498339827457013000000000000000000000000000000000000000000000000,
  4079209517825460532711473345687013687234021399032152703928335389474000416120250000000000000000000000000000000000000000000000000,
  4676653977777903477263816566255032420835884748589530849190601216206532129555214000000000000000000000000000000000000000000000000,
  5271259656563440089130381590626187924278960077098981339877314187326701989953353000000000000000000000000000000000000000000000000,
  5862665390352390103364834375136936555319777486443337481120446720744268269519996000000000000000000000000000000000000000000000000,
  6450512048689917184544246386874845117074995992558666468293378595245780374720094000000000000000000000000000000000000000000000000,
  7034442703668160875568589303255254288777026268524075448323573829133014207020140000000000000000000000000000000000000000000000000,
  7614102825652685935639393084922717743128091803341068541989678321697332319389143200000000000000000000000000000000000000000000000,
  8189140488741573081723588471872597390842262027989904480005436113373376474752311900000000000000000000000000000000000000000000000,
  8759206579540314577331680423438529320757394593460130741856767352341643794839233400000000000000000000000000000000000000000000000,
  9323955006530971478753698583402858404245148893285556438309809763573707981373303640000000000000000000000000000000000000000000000,
  9883042908755491471664801089960632975287785391528304616518167988662722303534971420000000000000000000000000000000000000000000000,
  10436130863141005225673171997667620306565070372596676564860431728389913402840582230000000000000000000000000000000000000000000000,
  10982883090068975788799657376064857390831019329017341888578883017604589489206935745000000000000000000000000000000000000000000000,
  11522967656921087154811609734510480606407100443722770978008748259110170445579824765000000000000000000000000000000000000000000000,
  12056056679400848183529562144696595004587840166147823839839314157466887150616607159900000000000000000000000000000000000000000000,
  12581826520465013101514365424171774462558594445340603802407455991821326939209312254700000000000000000000000000000000000000000000,
  13099957986718627426172681912499057924648202851834907699216319063857638388937566037800000000000000000000000000000000000000000000,
  13610136522139249906034237533758596416794363553461551559484644846471068864020486693200000000000000000000000000000000000000000000,
  14112052399003395774044161633613449735495351352924337357890269560992884539077809151732000000000000000000000000000000000000000000,
  14605400905893418351737288078952405479963823811132483009450448800601014571779391896364000000000000000000000000000000000000000000,
  15089882532666922992635733981430531832292379341995449082342941095201472339314229780544600000000000000000000000000000000000000000,
  15565203152273955098532590262974698171307310732168106356624513979567864683227349071126300000000000000000000000000000000000000000,
  16031074199309941802254151842762563153278007910999516425881851833308409014958271755154710000000000000000000000000000000000000000,
  16487212845194879399346060358145797801109089209896815942450259363959332147940838208216437000000000000000000000000000000000000000,
  16933342169871654545878815295200493268459470511914328063140581737032102301768388776885228000000000000000000000000000000000000000,
  17369191329918731922164721250350456869584024879874250719595591938069445950743593138111409400000000000000000000000000000000000000,
  17794495722974774231027912900350545472712279571314486153973508571502605374145465388805552790000000000000000000000000000000000000,
  18208997148375106468721469154478596516824915025572211211625343884106244351770169429154148965000000000000000000000000000000000000,
  18612443963902310429440419898957661056447491905304636953981768004873398298060446266201208993200000000000000000000000000000000000,
  19004591238555646611148901044533231110843075522421159831994536518712288323981247931967723074000000000000000000000000000000000000,
  19385200901246454628112623489470695231319747031343502164843539853906378131203231725090219114900000000000000000000000000000000000,
  19754041885329183081815217323169330085628084434035677990022243932052310840994168750816190699293000000000000000000000000000000000,
  20110890268880247225644623956286553632480229611286824041334496464346926507590256041607233573521000000000000000000000000000000000,
  20455529410639508279497065713300966025016257631890699851905257657308329863070206593807546063511390000000000000000000000000000000,
  20787750081531811812652137291249876809152315891562772674139920419394736558214355456837555413027325000000000000000000000000000000,
  21107350591688713643523847921657733133543923196986956769861722032793223681872269872724069031132737600000000000000000000000000000,
  21414136912893259295449693233544631401840424115060982585284176219353086931617278927734281097635299140000000000000000000000000000,
  21707922796373466052301324695330634556953430605983925963679206060128562253136137848292503103628404097000000000000000000000000000,
  21988529885872983756478409758807137972077771361947101489176574341652432072980550727948297183716050188900000000000000000000000000,
  22255787825930280235631416460158274407427222619679169433570082298674153072631153618836344007048242810620000000000000000000000000,
  22509534365300608085694429903049815898566593399955184076741675584628405839544004740577973062206789575360900000000000000000000000,
  22749615455457959852242553240982263725687251381603868186310098804986206909122753060570641377937574708988230000000000000000000000,
  22975885344117206754377437838947037014074919237309754155124480116023672807258175600505755950946517785883577000000000000000000000,
  23188206663719640249922582981729438496114228515170297936085691546857147589292132515380383359016391280552487700000000000000000000,
  23386450514828194170722043496950097867444307559452062014105494679284302118939384731429556723547618307074210470000000000000000000,
  23570496544381716050033676844305824459272521679927788607687168795912220057086098607738536284316931072668364392900000000000000000,
  23740233018760777777714726703423802716561538839505829121644169467683697913396889474075647487796937244124661941300000000000000000,
  23895556891620665983864481754172138199568146148882695243022018826807113500962578340298326279752794886596251210217000000000000000,
  24036373866450369675132086026456308695133507196807738440472202098600189712857581658610497340610131517415883317846110000000000000,
  24162598453819584716522917710986225030308881287913650629326980293354930169986108815213419391760085466758456186090846000000000000,
  24274154023278979833195063936748307415391910656127375000428911146953445893306188709584949087734789607134470491610711400000000000,
  24370972849882214952813561907241062171014934083397033519361857196489555275404200912904124582681937652604547270613924026000000000,
  24452996155301467956140198471528736303495435205327158600382942022542472999180656058220630660646162566825896849724424265800000000,
  24520174143511508275183033290174662956106619030839844456317613040513682733585608225446241564086422340725468746514848469137000000,
  24572466031020653286354137335186163789010846904226165669686653438994415911845371100569564921668199060713970781538714166621300000,
  24609840071630254092545634003360006552907011371925640878726088388106137236140049367110873430812513924468902661829434681199996000,
  24632273575707679066033370218017296250729802924108948058674697032314156722161142385248078661475210653842754011285673828523694300,
  24639752923961094419579417477502764644134561709991139651536806531124132036499595760231831453177782898705917468931459772811522373,
  24632273575707679066033370218017296250729802924108948058674697032314156722161142385248078661475210653842754011285673828523694300,
  24609840071630254092545634003360006552907011371925640878726088388106137236140049367110873430812513924468902661829434681199996000,
  24572466031020653286354137335186163789010846904226165669686653438994415911845371100569564921668199060713970781538714166621300000,
  24520174143511508275183033290174662956106619030839844456317613040513682733585608225446241564086422340725468746514848469137000000,
  24452996155301467956140198471528736303495435205327158600382942022542472999180656058220630660646162566825896849724424265800000000,
  24370972849882214952813561907241062171014934083397033519361857196489555275404200912904124582681937652604547270613924026000000000,
  24274154023278979833195063936748307415391910656127375000428911146953445893306188709584949087734789607134470491610711400000000000,
  24162598453819584716522917710986225030308881287913650629326980293354930169986108815213419391760085466758456186090846000000000000,
  24036373866450369675132086026456308695133507196807738440472202098600189712857581658610497340610131517415883317846110000000000000,
  23895556891620665983864481754172138199568146148882695243022018826807113500962578340298326279752794886596251210217000000000000000,
  23740233018760777777714726703423802716561538839505829121644169467683697913396889474075647487796937244124661941300000000000000000,
  23570496544381716050033676844305824459272521679927788607687168795912220057086098607738536284316931072668364392900000000000000000,
  23386450514828194170722043496950097867444307559452062014105494679284302118939384731429556723547618307074210470000000000000000000,
  23188206663719640249922582981729438496114228515170297936085691546857147589292132515380383359016391280552487700000000000000000000,
  22975885344117206754377437838947037014074919237309754155124480116023672807258175600505755950946517785883577000000000000000000000,
  22749615455457959852242553240982263725687251381603868186310098804986206909122753060570641377937574708988230000000000000000000000,
  22509534365300608085694429903049815898566593399955184076741675584628405839544004740577973062206789575360900000000000000000000000,
  22255787825930280235631416460158274407427222619679169433570082298674153072631153618836344007048242810620000000000000000000000000,
  21988529885872983756478409758807137972077771361947101489176574341652432072980550727948297183716050188900000000000000000000000000,
  21707922796373466052301324695330634556953430605983925963679206060128562253136137848292503103628404097000000000000000000000000000,
  21414136912893259295449693233544631401840424115060982585284176219353086931617278927734281097635299140000000000000000000000000000,
  21107350591688713643523847921657733133543923196986956769861722032793223681872269872724069031132737600000000000000000000000000000,
  20787750081531811812652137291249876809152315891562772674139920419394736558214355456837555413027325000000000000000000000000000000,
  20455529410639508279497065713300966025016257631890699851905257657308329863070206593807546063511390000000000000000000000000000000,
  20110890268880247225644623956286553632480229611286824041334496464346926507590256041607233573521000000000000000000000000000000000,
  19754041885329183081815217323169330085628084434035677990022243932052310840994168750816190699293000000000000000000000000000000000,
  19385200901246454628112623489470695231319747031343502164843539853906378131203231725090219114900000000000000000000000000000000000,
  19004591238555646611148901044533231110843075522421159831994536518712288323981247931967723074000000000000000000000000000000000000,
  18612443963902310429440419898957661056447491905304636953981768004873398298060446266201208993200000000000000000000000000000000000,
  18208997148375106468721469154478596516824915025572211211625343884106244351770169429154148965000000000000000000000000000000000000,
  17794495722974774231027912900350545472712279571314486153973508571502605374145465388805552790000000000000000000000000000000000000,
  17369191329918731922164721250350456869584024879874250719595591938069445950743593138111409400000000000000000000000000000000000000,
  16933342169871654545878815295200493268459470511914328063140581737032102301768388776885228000000000000000000000000000000000000000,
  16487212845194879399346060358145797801109089209896815942450259363959332147940838208216437000000000000000000000000000000000000000,
  16031074199309941802254151842762563153278007910999516425881851833308409014958271755154710000000000000000000000000000000000000000,
  15565203152273955098532590262974698171307310732168106356624513979567864683227349071126300000000000000000000000000000000000000000,
  15089882532666922992635733981430531832292379341995449082342941095201472339314229780544600000000000000000000000000000000000000000,
  14605400905893418351737288078952405479963823811132483009450448800601014571779391896364000000000000000000000000000000000000000000,
  14112052399003395774044161633613449735495351352924337357890269560992884539077809151732000000000000000000000000000000000000000000,
  13610136522139249906034237533758596416794363553461551559484644846471068864020486693200000000000000000000000000000000000000000000,
  13099957986718627426172681912499057924648202851834907699216319063857638388937566037800000000000000000000000000000000000000000000,
  12581826520465013101514365424171774462558594445340603802407455991821326939209312254700000000000000000000000000000000000000000000,
  12056056679400848183529562144696595004587840166147823839839314157466887150616607159900000000000000000000000000000000000000000000,
  11522967656921087154811609734510480606407100443722770978008748259110170445579824765000000000000000000000000000000000000000000000,
  10982883090068975788799657376064857390831019329017341888578883017604589489206935745000000000000000000000000000000000000000000000,
  10436130863141005225673171997667620306565070372596676564860431728389913402840582230000000000000000000000000000000000000000000000,
  9883042908755491471664801089960632975287785391528304616518167988662722303534971420000000000000000000000000000000000000000000000,
  9323955006530971478753698583402858404245148893285556438309809763573707981373303640000000000000000000000000000000000000000000000,
  8759206579540314577331680423438529320757394593460130741856767352341643794839233400000000000000000000000000000000000000000000000,
  8189140488741573081723588471872597390842262027989904480005436113373376474752311900000000000000000000000000000000000000000000000,
  7614102825652685935639393084922717743128091803341068541989678321697332319389143200000000000000000000000000000000000000000000000,
  7034442703668160875568589303255254288777026268524075448323573829133014207020140000000000000000000000000000000000000000000000000,
  6450512048689917184544246386874845117074995992558666468293378595245780374720094000000000000000000000000000000000000000000000000,
  5862665390352390103364834375136936555319777486443337481120446720744268269519996000000000000000000000000000000000000000000000000,
  5271259656563440089130381590626187924278960077098981339877314187326701989953353000000000000000000000000000000000000000000000000,
  4676653977777903477263816566255032420835884748589530849190601216206532129555214000000000000000000000000000000000000000000000000,
  4079209517825460532711473345687013687234021399032152703928335389474000416120250000000000000000000000000000000000000000000000000,
  3479289381005146590891089410025208911597704185689477715946223066498339827457013000000000000000000000000000000000000000000000000,
  2877258765628900408288319751354801082275112950634768007029027972606073929647898000000000000000000000000000000000000000000000000,
  2273486070749254780281084077636574013956566421072695747226703352969300688410210000000000000000000000000000000000000000000000000,
  1668348812517193676102886291474957193249108909036695241995074774067098853074193400000000000000000000000000000000000000000000000,
  1062276686953848695965235985320931883496070546158346553100672763596247581640345400000000000000000000000000000000000000000000000,
  456457261095866627919365192649105388039534590662632800257011214611242960185481670000000000000000000000000000000000000000000000]

/-- `case 128` (Util/Gauss_Legendre_Nodes_and_Weights.hpp:39434-40002), `nodes`. -/
def nodes128 : List Int := [
  -999824887947131914473608082981874171601744075327476794038766265010742963678464988280307771674162503340720408203359510811827103760,
  -999077459977375895011987757683539829317590509795224875467931616085943028785276863849372541548578828154220769030087541048463373970,
  -997733248625514019882157443347699381411356666895566527802029461258993456388719043579175526781376962197434013986144634623735762800,
  -995792758534981186864161209620546416745438242147919390695365249661730546181629229420747381471609971305229774946731908603399901550,
  -993257112900212935303437221085991652348227395741262649655108974227489900423907219561798256445963439589072037869191205349821756690,
  -990127818491734383337930315471969789804584078149699112189801826483489742719447797385028658635198317329462939044324432069577114360,
  -986406742724586208871235519240487450536842392077915740022077473555726910203289997744922927955005238738940968425807674138686817280,
  -982096108435718536024765629891603926177146083773864144049441713059871455614961175264107787376347013338746488389379315787527496320,
  -977198491463907387165374426523317503136628419325752710457301064029455275855889877551007846662429394201951111393553598302616900180,
  -971716818747136580904338360183223835124025200970844082644596914338865727708025770278250623448058366375242339455508497626752846160,
  -965654366431965268645829026588804384555693505697268145010125594977774446383886567620363107852618818758612948652751286077771007070,
  -959014757853699928098918549973125079037819737371388652627687457707534940739083346291376634209357691268824819743590537658324059960,
  -951801961341264386217796301591956159344531563607041984886539856133605988988313028196394075555930874325184878417055631291810262290,
  -944020287830220182121111417900492273744269673875086005139137633642122104566393072834241393468436242836275032340302262074682594070,
  -935674388277916375783126754801419227404386989426772924133349974749301080279122007821610690499319930244042521341568301234061690800,
  -926769250878947843334624518174591143914581855423786063727617062634866400361824519628810605038344340501529946193032902003246985480,
  -917310198080960537036483580142165576286567265409790386882575853026050104265600887538951624325628828902178003382389437320550541420,
  -907302883401756813921485947489143658105747615213562681280629918970011949633052090688245100083062129212184227070230490517128621220,
  -896753288049158184386447397626046023752279336141358705880557566681363626339400313198916449376823295059874723468745436984262561070,
  -885667717345397217408292424532436356007954758886233012513576807762259808619095167696428627815906029883435454933985137882449878020,
  -874052796958031798695417954838269121229704050541220764069309941914883818148372772097549291699815923049481297918571705030974817820,
  -861915468939548460590632271595073843574707901968532341640833475850267169847704564824332243853395840980502544821175606713040153840,
  -849262987577968969163600128998579691638515379979737321922061963782463017063906626601325321125244957506341727105049063739671179770,
  -836102915060906847116875309813909133223281588689934469664877683731838202133836498985474706828249309039823643827514970544698557060,
  -822443116955643842464594185856362268839025412333847489137365849383955205785786925308729407358389413921053933341190504991773151050,
  -808291757507913660119642248581417287667297580715008491114035608833828980651496554482933930260186513343783210093403543173973513710,
  -793657294762193290243332946693806777795973646434017377536106355777437814060207863625944631128507063360908853176479314321501435250,
  -778548475506411966850494066699286050115550128884012830166869522466753382264460205197648444316930249361745757233817669678122266560,
  -762974330044094722779769143486330548447894551880701186007429705290065664891279782382742998227168358768813976869766540023378971580,
  -746944166797061981169882421434488803121623679303150671214080673569069591821566844744182424627939642786070966900297238626136925330,
  -730467566741908806471736942954439672208682711566285018915863667335222029805459201338882050471505599344931572764756265247453186570,
  -713554377683587413343859913030853876588845753615844157881172719229224135954987582282842632493408367413504570439571473653448251800,
  -696214708369514332385086602419347557005036443910190173435079714648280479581527574447589689365820515833862893703626525852245025410,
  -678458922447719259367755656704745585538303388182567793400902611475408698413198704637468198729150877923453544915979735883870995630,
  -660297632272646052105946834790698208425692479041646113146089895225322797303085289306959356076774474821409791161463109955251596600,
  -641741692562307557153524916177315400383414401407993561795227106190648337892331592033206622837122639680727135967519248982143870690,
  -622802193910584910761539598641005881050094921762621047923672515705200883450584432928933395448339854555055634302492142722345212820,
  -603490456158548624203573197530765985567606674355728021286407783059379393691177824412427139549946540966566054337065385671626800610,
  -583818021628763089550038857283899630863347124707354558086019471594293609733170257537547059839584360212115058494885965050131561890,
  -563796648226618083914430770208106017955493985054991147646351370724753485565639402614029973071115382943538294947871287315859503900,
  -543438302412810363444193627172078964540249946277274924520844190538202865516826612243026427588510879327248739002601629194438032270,
  -522755152051175478453947939495837379644881595486856961591398400954340593006744201141550441131481204718511161929558374462100603330,
  -501759559136144464289606293342111575734600562485027323391320102136254433671990540469325185384044462219047537122960529690195790760,
  -480464072404172025858275706671041846791433170124765224239272688938341564787725561333354586559466753986683893472151122697041533880,
  -458881419833552195449089130422706757538986626776781080020018863810543738054767079538852009588698801526317588214928645181274247260,
  -437024501037104162937042943417261582376157613488066656094743072219655410099121808240505465343347537946956837164511577288457149220,
  -414906379552275015492273879245961344194602307264323844113016013516812737652736312275691916330334498875798764802370972493904086380,
  -392540275033267442735648189122302040204880585609766559009786609676337015505333991263698674180650664347900733969350129821522648370,
  -369939555349859026616591741167647326588748645311520832099933400435229594917389062690185674142490986618624545583094251613443664400,
  -347117728597635508426162771971452430552397537887671522719107362074769438316065503450223408081531867763596904045694594880271049700,
  -324088435024413375183252279167455820204736321175114438942813843530622153389894732980004576617789573151109100168960521948195340550,
  -300865438877677202667154094506988466776016932371096431769938632047109251067442189638217128676113266041871321235204658472923613240,
  -277462620177904402806231634076386216888861042710275861764364613440676054130602176481326658776621942580302247797033781181108336100,
  -253893966422694320855617996495655581171254531561424667767952935040525573689801962924103801124214946539423171605901392569068358880,
  -230173564226659986410986577211763609104587799708940222046776800132234862822562845338932152552533118487121784639131139482603889210,
  -206315590902079217154058010827953290261681542778520541144756279744541569368344057222952248994062702655196906948215839155938577230,
  -182334305985337182410382574860777758959514816011287441925383624674408367099397709546410285949328461595131228859705017747201254590,
  -158244042714224933997475452139466149812270977066871128304278660181929019156025599844874954928889663365290913289336432816252360530,
  -134059199461187785117575317260796288330342383991028374648895361655237909293552824680578655977044584806068827354717374327486968910,
  -109794231127643746672974667401178032538821728497558995637727036660500314882238353112949542408262186344721765126687310041983403280,
  -85463640504515498636498034460249145740002590281596687540701324217755029029135488332171141565985881858401348391185445928702873431,
  -61081969604139568103787023522318463239682319400108716191660636907879622912075453023452942091320876667321811726557709113378773158,
  -36663790968733493330215348789448873789688979532132057058492770600598383585424113534751616046126451366028688144924877960982833522,
  -12223698960615764198052119667406631855885971429889554101908012812187844561455470572480193019918723716276944372158658413834878405,
  12223698960615764198052119667406631855885971429889554101908012812187844561455470572480193019918723716276944372158658413834878405,
  36663790968733493330215348789448873789688979532132057058492770600598383585424113534751616046126451366028688144924877960982833522,
  61081969604139568103787023522318463239682319400108716191660636907879622912075453023452942091320876667321811726557709113378773158,
  85463640504515498636498034460249145740002590281596687540701324217755029029135488332171141565985881858401348391185445928702873431,
  109794231127643746672974667401178032538821728497558995637727036660500314882238353112949542408262186344721765126687310041983403280,
  134059199461187785117575317260796288330342383991028374648895361655237909293552824680578655977044584806068827354717374327486968910,
  158244042714224933997475452139466149812270977066871128304278660181929019156025599844874954928889663365290913289336432816252360530,
  182334305985337182410382574860777758959514816011287441925383624674408367099397709546410285949328461595131228859705017747201254590,
  206315590902079217154058010827953290261681542778520541144756279744541569368344057222952248994062702655196906948215839155938577230,
  230173564226659986410986577211763609104587799708940222046776800132234862822562845338932152552533118487121784639131139482603889210,
  253893966422694320855617996495655581171254531561424667767952935040525573689801962924103801124214946539423171605901392569068358880,
  277462620177904402806231634076386216888861042710275861764364613440676054130602176481326658776621942580302247797033781181108336100,
  300865438877677202667154094506988466776016932371096431769938632047109251067442189638217128676113266041871321235204658472923613240,
  324088435024413375183252279167455820204736321175114438942813843530622153389894732980004576617789573151109100168960521948195340550,
  347117728597635508426162771971452430552397537887671522719107362074769438316065503450223408081531867763596904045694594880271049700,
  369939555349859026616591741167647326588748645311520832099933400435229594917389062690185674142490986618624545583094251613443664400,
  392540275033267442735648189122302040204880585609766559009786609676337015505333991263698674180650664347900733969350129821522648370,
  414906379552275015492273879245961344194602307264323844113016013516812737652736312275691916330334498875798764802370972493904086380,
  437024501037104162937042943417261582376157613488066656094743072219655410099121808240505465343347537946956837164511577288457149220,
  458881419833552195449089130422706757538986626776781080020018863810543738054767079538852009588698801526317588214928645181274247260,
  480464072404172025858275706671041846791433170124765224239272688938341564787725561333354586559466753986683893472151122697041533880,
  501759559136144464289606293342111575734600562485027323391320102136254433671990540469325185384044462219047537122960529690195790760,
  522755152051175478453947939495837379644881595486856961591398400954340593006744201141550441131481204718511161929558374462100603330,
  543438302412810363444193627172078964540249946277274924520844190538202865516826612243026427588510879327248739002601629194438032270,
  563796648226618083914430770208106017955493985054991147646351370724753485565639402614029973071115382943538294947871287315859503900,
  583818021628763089550038857283899630863347124707354558086019471594293609733170257537547059839584360212115058494885965050131561890,
  603490456158548624203573197530765985567606674355728021286407783059379393691177824412427139549946540966566054337065385671626800610,
  622802193910584910761539598641005881050094921762621047923672515705200883450584432928933395448339854555055634302492142722345212820,
  641741692562307557153524916177315400383414401407993561795227106190648337892331592033206622837122639680727135967519248982143870690,
  660297632272646052105946834790698208425692479041646113146089895225322797303085289306959356076774474821409791161463109955251596600,
  678458922447719259367755656704745585538303388182567793400902611475408698413198704637468198729150877923453544915979735883870995630,
  696214708369514332385086602419347557005036443910190173435079714648280479581527574447589689365820515833862893703626525852245025410,
  713554377683587413343859913030853876588845753615844157881172719229224135954987582282842632493408367413504570439571473653448251800,
  730467566741908806471736942954439672208682711566285018915863667335222029805459201338882050471505599344931572764756265247453186570,
  746944166797061981169882421434488803121623679303150671214080673569069591821566844744182424627939642786070966900297238626136925330,
  762974330044094722779769143486330548447894551880701186007429705290065664891279782382742998227168358768813976869766540023378971580,
  778548475506411966850494066699286050115550128884012830166869522466753382264460205197648444316930249361745757233817669678122266560,
  793657294762193290243332946693806777795973646434017377536106355777437814060207863625944631128507063360908853176479314321501435250,
  808291757507913660119642248581417287667297580715008491114035608833828980651496554482933930260186513343783210093403543173973513710,
  822443116955643842464594185856362268839025412333847489137365849383955205785786925308729407358389413921053933341190504991773151050,
  836102915060906847116875309813909133223281588689934469664877683731838202133836498985474706828249309039823643827514970544698557060,
  849262987577968969163600128998579691638515379979737321922061963782463017063906626601325321125244957506341727105049063739671179770,
  861915468939548460590632271595073843574707901968532341640833475850267169847704564824332243853395840980502544821175606713040153840,
  874052796958031798695417954838269121229704050541220764069309941914883818148372772097549291699815923049481297918571705030974817820,
  885667717345397217408292424532436356007954758886233012513576807762259808619095167696428627815906029883435454933985137882449878020,
  896753288049158184386447397626046023752279336141358705880557566681363626339400313198916449376823295059874723468745436984262561070,
  907302883401756813921485947489143658105747615213562681280629918970011949633052090688245100083062129212184227070230490517128621220,
  917310198080960537036483580142165576286567265409790386882575853026050104265600887538951624325628828902178003382389437320550541420,
  926769250878947843334624518174591143914581855423786063727617062634866400361824519628810605038344340501529946193032902003246985480,
  935674388277916375783126754801419227404386989426772924133349974749301080279122007821610690499319930244042521341568301234061690800,
  944020287830220182121111417900492273744269673875086005139137633642122104566393072834241393468436242836275032340302262074682594070,
  951801961341264386217796301591956159344531563607041984886539856133605988988313028196394075555930874325184878417055631291810262290,
  959014757853699928098918549973125079037819737371388652627687457707534940739083346291376634209357691268824819743590537658324059960,
  965654366431965268645829026588804384555693505697268145010125594977774446383886567620363107852618818758612948652751286077771007070,
  971716818747136580904338360183223835124025200970844082644596914338865727708025770278250623448058366375242339455508497626752846160,
  977198491463907387165374426523317503136628419325752710457301064029455275855889877551007846662429394201951111393553598302616900180,
  982096108435718536024765629891603926177146083773864144049441713059871455614961175264107787376347013338746488389379315787527496320,
  986406742724586208871235519240487450536842392077915740022077473555726910203289997744922927955005238738940968425807674138686817280,
  990127818491734383337930315471969789804584078149699112189801826483489742719447797385028658635198317329462939044324432069577114360,
  993257112900212935303437221085991652348227395741262649655108974227489900423907219561798256445963439589072037869191205349821756690,
  995792758534981186864161209620546416745438242147919390695365249661730546181629229420747381471609971305229774946731908603399901550,
  997733248625514019882157443347699381411356666895566527802029461258993456388719043579175526781376962197434013986144634623735762800,
  999077459977375895011987757683539829317590509795224875467931616085943028785276863849372541548578828154220769030087541048463373970,
  999824887947131914473608082981874171601744075327476794038766265010742963678464988280307771674162503340720408203359510811827103760]

/-- `case 128` (Util/Gauss_Legendre_Nodes_and_Weights.hpp:39434-40002), `weights`. -/
def weights128 : List Nat := [
  449380960292090376394292239988722654319453544101743536506367240636681403145188250000000000000000000000000000000000000000000000,
  1045812679340348779312851600106983846290519784834523780839810520806038160479746900000000000000000000000000000000000000000000000,
  1642503018669029538790875594798066549305112117089350630872339670368710340790913000000000000000000000000000000000000000000000000,
  2238288430962618743622054272715903221939868106103776039234813739720885399374879000000000000000000000000000000000000000000000000,
  2832751471457991095285734646819059262048865113660043485689278719412812171885597000000000000000000000000000000000000000000000000,
  3425526040910215774337784660133170120458029483420180188352098501500033652054923000000000000000000000000000000000000000000000000,
  4016254983738642313194343486303099630043287487867404687343677847013808542955716000000000000000000000000000000000000000000000000,
  4604584256702955118290541980284688487367886955549523104321235111898337643978570000000000000000000000000000000000000000000000000,
  5190161832676330205070767134849455858865807752155673342621136004638032117423315000000000000000000000000000000000000000000000000,
  5772637542865698589334617626067639433441723938684726197123065729113680805435205000000000000000000000000000000000000000000000000,
  6351663161707188787214327826231292791641079277515076260142682099532743996960921000000000000000000000000000000000000000000000000,
  6926892566898813563426670360328775274960277031458902518860602396575469067785128000000000000000000000000000000000000000000000000,
  7497981925634728687671962688470164830852999842394944190727258444633058602858028000000000000000000000000000000000000000000000000,
  8064589890486057972928598697862961059352772972679980075112271688017479415284584100000000000000000000000000000000000000000000000,
  8626377798616749704978843781968439645213758671879879863614695904770808324566207100000000000000000000000000000000000000000000000,
  9183009871660874334478743688426683229364709822270154919895075730695922624872459300000000000000000000000000000000000000000000000,
  9734153415006805863548266093558904725135658662329528206675045215821514033045138050000000000000000000000000000000000000000000000,
  10279479015832157133215340326385369525777888955346886847354286982482423649945317420000000000000000000000000000000000000000000000,
  10818660739503076247659646277468898739482425189168921458055421826338242941241885920000000000000000000000000000000000000000000000,
  11351376324080416693281668452537309619247260467524551358321365565111007698703137966000000000000000000000000000000000000000000000,
  11877307372740279575891106925578207382135966559841611851511420041866607063494964505000000000000000000000000000000000000000000000,
  12396139543950922968821728197323653201115775998403273318829649723055529857495826309900000000000000000000000000000000000000000000,
  12907562739267347220442834003863646853505426045447760033517688607603198803770122000800000000000000000000000000000000000000000000,
  13411271288616332314488951616165177066595027643042108719198954538462830098410837707110000000000000000000000000000000000000000000,
  13906964132951985244288007395606309032877091125075362102503751467058160354743666447540000000000000000000000000000000000000000000,
  14394345004166846176823892008535995018806019661168672229684632226820967634278780262906000000000000000000000000000000000000000000,
  14873122602147314252385498520077286572909706413294737080241748186702714496603226962331000000000000000000000000000000000000000000,
  15343010768865144085990853741436749596772591755222408893199199274636952203673081569722200000000000000000000000000000000000000000,
  15803728659399346858965631687381272704802592133762115662273265083578796312172066726619220000000000000000000000000000000000000000,
  16255000909785187051657456477058006863287781029795833699026070305798319758715351431738810000000000000000000000000000000000000000,
  16696557801589204589091507953798859173534808981362042888546285357096977231732749416959137000000000000000000000000000000000000000,
  17128135423111376830680987618846443151771785985967585588562909941352179025694788326828355700000000000000000000000000000000000000,
  17549475827117704648706925634375749319071169980621262223025426141575660976319511442783761900000000000000000000000000000000000000,
  17960327185008685940196927524968289029763627456632996677808571393880646550725985531142170160000000000000000000000000000000000000,
  18360443937331343221289290991304755097143822544693084820939024433848229253555503882135522749000000000000000000000000000000000000,
  18749586940544708650919548473844607845372398508998659019670240850326501929481184526140489523600000000000000000000000000000000000,
  19127523609950945486518531667840458415537967185370450699261364245294865850550565902367722722910000000000000000000000000000000000,
  19494028058706602823021918681215506948859287576991729309915501157759912078008777712598435596130000000000000000000000000000000000,
  19848881232830862219944413264876536494784856691682978158576218609857056544238591103918020738418600000000000000000000000000000000,
  20191871042130041180673158406118351162483724196615380306866630817066802620726821781821333341035690000000000000000000000000000000,
  20522792486960069432284967788161172230369232066835552249346516726706389647007191461875628030551043000000000000000000000000000000,
  20841447780751149113583948422898441646777329108909874691497009910944161474928283630300941830894357600000000000000000000000000000,
  21147646468221348537019535180397345324182142936904412655608995085544374379175003720805232535287057210000000000000000000000000000,
  21441205539208460137111853878016634104745086920951226453889117955981474700794074714487431282735245428000000000000000000000000000,
  21721949538052075375260957767613595354309856020916601469994366774564383162271658378209409988195914317200000000000000000000000000,
  21989710668460491434122106599160802097008471879708893629849300243534359089401296208854398325024158892040000000000000000000000000,
  22244328893799765104629133607198011273672500908647944787914969548311318107440282639076695295673473256348000000000000000000000000,
  22485652032744966871824603940587874279278950961162572174100946277226257673437960618229430870049635823890500000000000000000000000,
  22713535850236461309712635922930769202838678666066507384210690193400335266501274343558587418938150607532480000000000000000000000,
  22927844143686846920410987209321399316543482850894212983126107756573768856443435483034217482975440793459808200000000000000000000,
  23128448824387027879297902402767927682126218286279951845487388745252816496699392007475778873882622516080853930000000000000000000,
  23315229994062760122415671272798263467294736305391037133657661424679806372899327584876703276929476264375666193000000000000000000,
  23488076016535913153025273281787309284165894037039095168847228664330566785329484250891957705410814769086708377200000000000000000,
  23646883584447615143651392302866275675261991584016510371960809001527061958477324275468560523186955883307771868473000000000000000,
  23791557781003400638780709885412780845746291577327825375592361694143044468497512318975463255913740380132258191274000000000000000,
  23922012136703455672450408817071889161115485458593415393482146258960453534408008467743045235940024358698646510567160000000000000,
  24038168681024052637587316819637861769680969551544145016606629972757393472447480026365091128775905084135913823405570200000000000,
  24139957989019284997716653890466234259679033836399858161920825819324140547670442555279858971249413767432541862494786610000000000,
  24227319222815248120093308441786261480677063972881856881647774222296024439454691900724355708521512994922068308677041964000000000,
  24300200167971865323442606363842719884524434811573251286251996606571733909374010308152700116813110564974221507309741542560000000,
  24358557264690625853268520246285787011468741362218989409494108967470391703304176670862121605271028482070268511962873642792000000,
  24402355633849582093297989694202810781534811017685917776872784227284526406467100978719653045618854054834374627600474523116390000,
  24431569097850045054848561428640429392839015282350815571582472928277158229743679978582954793234482995335176051172471830352525000,
  24446180196262518211325852610625955037918767945673708152236709651607460080647643427143916767398998050639592749080311067502133990,
  24446180196262518211325852610625955037918767945673708152236709651607460080647643427143916767398998050639592749080311067502133990,
  24431569097850045054848561428640429392839015282350815571582472928277158229743679978582954793234482995335176051172471830352525000,
  24402355633849582093297989694202810781534811017685917776872784227284526406467100978719653045618854054834374627600474523116390000,
  24358557264690625853268520246285787011468741362218989409494108967470391703304176670862121605271028482070268511962873642792000000,
  24300200167971865323442606363842719884524434811573251286251996606571733909374010308152700116813110564974221507309741542560000000,
  24227319222815248120093308441786261480677063972881856881647774222296024439454691900724355708521512994922068308677041964000000000,
  24139957989019284997716653890466234259679033836399858161920825819324140547670442555279858971249413767432541862494786610000000000,
  24038168681024052637587316819637861769680969551544145016606629972757393472447480026365091128775905084135913823405570200000000000,
  23922012136703455672450408817071889161115485458593415393482146258960453534408008467743045235940024358698646510567160000000000000,
  23791557781003400638780709885412780845746291577327825375592361694143044468497512318975463255913740380132258191274000000000000000,
  23646883584447615143651392302866275675261991584016510371960809001527061958477324275468560523186955883307771868473000000000000000,
  23488076016535913153025273281787309284165894037039095168847228664330566785329484250891957705410814769086708377200000000000000000,
  23315229994062760122415671272798263467294736305391037133657661424679806372899327584876703276929476264375666193000000000000000000,
  23128448824387027879297902402767927682126218286279951845487388745252816496699392007475778873882622516080853930000000000000000000,
  22927844143686846920410987209321399316543482850894212983126107756573768856443435483034217482975440793459808200000000000000000000,
  22713535850236461309712635922930769202838678666066507384210690193400335266501274343558587418938150607532480000000000000000000000,
  22485652032744966871824603940587874279278950961162572174100946277226257673437960618229430870049635823890500000000000000000000000,
  22244328893799765104629133607198011273672500908647944787914969548311318107440282639076695295673473256348000000000000000000000000,
  21989710668460491434122106599160802097008471879708893629849300243534359089401296208854398325024158892040000000000000000000000000,
  21721949538052075375260957767613595354309856020916601469994366774564383162271658378209409988195914317200000000000000000000000000,
  21441205539208460137111853878016634104745086920951226453889117955981474700794074714487431282735245428000000000000000000000000000,
  21147646468221348537019535180397345324182142936904412655608995085544374379175003720805232535287057210000000000000000000000000000,
  20841447780751149113583948422898441646777329108909874691497009910944161474928283630300941830894357600000000000000000000000000000,
  20522792486960069432284967788161172230369232066835552249346516726706389647007191461875628030551043000000000000000000000000000000,
  20191871042130041180673158406118351162483724196615380306866630817066802620726821781821333341035690000000000000000000000000000000,
  19848881232830862219944413264876536494784856691682978158576218609857056544238591103918020738418600000000000000000000000000000000,
  19494028058706602823021918681215506948859287576991729309915501157759912078008777712598435596130000000000000000000000000000000000,
  19127523609950945486518531667840458415537967185370450699261364245294865850550565902367722722910000000000000000000000000000000000,
  18749586940544708650919548473844607845372398508998659019670240850326501929481184526140489523600000000000000000000000000000000000,
  18360443937331343221289290991304755097143822544693084820939024433848229253555503882135522749000000000000000000000000000000000000,
  17960327185008685940196927524968289029763627456632996677808571393880646550725985531142170160000000000000000000000000000000000000,
  17549475827117704648706925634375749319071169980621262223025426141575660976319511442783761900000000000000000000000000000000000000,
  17128135423111376830680987618846443151771785985967585588562909941352179025694788326828355700000000000000000000000000000000000000,
  16696557801589204589091507953798859173534808981362042888546285357096977231732749416959137000000000000000000000000000000000000000,
  16255000909785187051657456477058006863287781029795833699026070305798319758715351431738810000000000000000000000000000000000000000,
  15803728659399346858965631687381272704802592133762115662273265083578796312172066726619220000000000000000000000000000000000000000,
  15343010768865144085990853741436749596772591755222408893199199274636952203673081569722200000000000000000000000000000000000000000,
  14873122602147314252385498520077286572909706413294737080241748186702714496603226962331000000000000000000000000000000000000000000,
  14394345004166846176823892008535995018806019661168672229684632226820967634278780262906000000000000000000000000000000000000000000,
  13906964132951985244288007395606309032877091125075362102503751467058160354743666447540000000000000000000000000000000000000000000,
  13411271288616332314488951616165177066595027643042108719198954538462830098410837707110000000000000000000000000000000000000000000,
  12907562739267347220442834003863646853505426045447760033517688607603198803770122000800000000000000000000000000000000000000000000,
  12396139543950922968821728197323653201115775998403273318829649723055529857495826309900000000000000000000000000000000000000000000,
  11877307372740279575891106925578207382135966559841611851511420041866607063494964505000000000000000000000000000000000000000000000,
  11351376324080416693281668452537309619247260467524551358321365565111007698703137966000000000000000000000000000000000000000000000,
  10818660739503076247659646277468898739482425189168921458055421826338242941241885920000000000000000000000000000000000000000000000,
  10279479015832157133215340326385369525777888955346886847354286982482423649945317420000000000000000000000000000000000000000000000,
  9734153415006805863548266093558904725135658662329528206675045215821514033045138050000000000000000000000000000000000000000000000,
  9183009871660874334478743688426683229364709822270154919895075730695922624872459300000000000000000000000000000000000000000000000,
  8626377798616749704978843781968439645213758671879879863614695904770808324566207100000000000000000000000000000000000000000000000,
  8064589890486057972928598697862961059352772972679980075112271688017479415284584100000000000000000000000000000000000000000000000,
  7497981925634728687671962688470164830852999842394944190727258444633058602858028000000000000000000000000000000000000000000000000,
  6926892566898813563426670360328775274960277031458902518860602396575469067785128000000000000000000000000000000000000000000000000,
  6351663161707188787214327826231292791641079277515076260142682099532743996960921000000000000000000000000000000000000000000000000,
  5772637542865698589334617626067639433441723938684726197123065729113680805435205000000000000000000000000000000000000000000000000,
  5190161832676330205070767134849455858865807752155673342621136004638032117423315000000000000000000000000000000000000000000000000,
  4604584256702955118290541980284688487367886955549523104321235111898337643978570000000000000000000000000000000000000000000000000,
  4016254983738642313194343486303099630043287487867404687343677847013808542955716000000000000000000000000000000000000000000000000,
  3425526040910215774337784660133170120458029483420180188352098501500033652054923000000000000000000000000000000000000000000000000,
  2832751471457991095285734646819059262048865113660043485689278719412812171885597000000000000000000000000000000000000000000000000,
  2238288430962618743622054272715903221939868106103776039234813739720885399374879000000000000000000000000000000000000000000000000,
  1642503018669029538790875594798066549305112117089350630872339670368710340790913000000000000000000000000000000000000000000000000,
  1045812679340348779312851600106983846290519784834523780839810520806038160479746900000000000000000000000000000000000000000000000,
  449380960292090376394292239988722654319453544101743536506367240636681403145188250000000000000000000000000000000000000000000000]

end Verif.Gauss
