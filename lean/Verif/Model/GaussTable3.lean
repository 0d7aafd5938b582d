/-!
The literals of `Util/Gauss_Legendre_Nodes_and_Weights.hpp` for 91 to 110 nodes, in the order of the
assignments, as numerators over `10^129` (no literal has more decimals). No import.
-/

namespace Verif.Gauss

/-- `case 91` (Util/Gauss_Legendre_Nodes_and_Weights.hpp:20943-21380), `nodes`. -/
def nodes91 : List Int := [
  -999654645076576130382989227515597563656832743077605154448059849279022064910340660649283872127060615690124759443038631942992868640,
  -998180792590534754673220140020205897297799157794282507116187155977489602278361763908822767236987054248671370548770387764139301870,
  -995531042505352453689383118206487435368256602689165899631360385472015338196168040074863834360475059434517665886901019530138569830,
  -991707928817277101567620255032238374648565027577950660421605170079343442563567224536846548542041463465715808437105876312036845480,
  -986715885723469786907936385937422161641316371942370113023286242059509701818137983851890721544013531628507294519771350530374502290,
  -980560780241213439036862799957754592362509402029375782047579839936751377670438517011340329785512257370683200821890336083183513960,
  -973249861830690734322467523754613670096826690309391829683916413194426370559513808325569903150464707547354788448634848534780164420,
  -964791745747276075776495103702787255466990075472382080813189275195122247151969285503285250448580647469415258092362283805903824170,
  -955196400732276363874021897272205421990346978866176982150637438514007464988438920418512158927662504381306730082301271821620454370,
  -944475136545718668062791481282661749580152882993897003124207487463680877735680816522083279555568569414674453070169840854219562450,
  -932640590356264406612214487853506931360165308956785065347904059771035127314184716043938048026456945028896386334593980724652091600,
  -919706711723450488141330604789459287800724992654457298595010994630782021832751892066783630210943214381454186543200351288594039690,
  -905688746096571865002580532751926096589893192071751913666769271757848410242916401671715633411906594773249790542623203719445511010,
  -890603216814397403791498665985675051357760679054443879505809701899012102887074902616807091223247397696690662560897364079207036390,
  -874467905612230385893604643693701201001877881317353018314696008241159010496619621989784269975590378421829613154491627935597400950,
  -857301831652642579078184410158914731907389118138914372444134458235973741005990272533211003451548290764343363257443339932623964620,
  -839125229101387031796118461456726383222939554200154473745232608468020573089399103361784438062117108357322510150079320033363269480,
  -819959523273280333976318164186844696309416758173168991115451910884134206510129053728318663534755749222866946422852809271819574380,
  -799827305375292240650490251814483692750654795413803709543777814037047241375158625718724479207981252673766711003476823242332197850,
  -778752305876122344694652910716029923327254381493052023290741441767331761608238034762569443562481612206382154990974129949298562540,
  -756759366533369288592606731652972908809584201304494444267159587316652438312377893958130743235507763078573276227860985874079736700,
  -733874411111094782254467801313768918081957901304737665350463630342378065835515719575310330526577152365925696061359851672229496900,
  -710124414822193871743145495795752922900956401628652886243563819573753217731979073954647319159173245236940508668501856843628564950,
  -685537372531524655146344202941148313870373783315464067918085927627279336790794890495284936173676435290943131043961367462106914150,
  -660142265757234790190264552440185603514855044142893890953039709663786259851728460965046007784584936553969866012752585570361564170,
  -633969028509153281498803697731992966916940034531068588432282147149055961123486806623694064209146066012539378031818101975076616600,
  -607048512004496052778235594983229188744320114906679470183823233624906174874128505041019148226224778447893722068149129639202151920,
  -579412448302463132325791960076963297957074612286356426945866004077824714870965116694763322572668896635527155557997932215001890720,
  -551093412900583559842207845114741393619531411928996575570208911154579894562709979897448902577929580390084536968529747506881296630,
  -522124786336890588473257049700045318355758375647809858367955480212187937097729549693616735742192817710773970446744573018319386600,
  -492540714843183417561821755601973099228503423189420105539135148833484034996377412291867431967760719288495703955074503298634572850,
  -462376070095751451638246516074152323028161473399940710454323147883981844600689246532243633387077978593787920227171175361901258200,
  -431666408111001803186172763086980179693694562573473338785257140242969915358669797877670945912307182181391999827180470687325804170,
  -400447927334439305030325206406415933535165630125859750244379414055735997289468723126798900394256877649792410146704159805952842710,
  -368757425972399562862388463320903678884087922579284989917247277180717761178683248753474779364761003766201780263914386735720375360,
  -336632258616828491012942440829618879441021574637457643821109171822054383914032237045592662787397022884572095940109359844093716210,
  -304110292214235318462596312780901424656523970519217997100016540657738370740333973833570273283195615826796161592670629487625159170,
  -271229861430719269390085131952014737389221328845837580259591658166527387114483487309212995897153965627357213831362795200397253090,
  -238029723465682118992550495973161931326151235623699414734608621185915624835155074862858667675747918327221820243297172139486215930,
  -204549012367488773656851060619249029963359415154583335272258764998499378258487323650530566425469806963387015886162306231348444730,
  -170827192904925167218355600231733802191929731993729155735211293211994248594211197998142172172861208739340472213193898748701804730,
  -136904014048826416020621807715359448207770939738499441138475892373598493225624244695643540647199983281298837710054284997820046340,
  -102819462118707721920624841465695667367056207627511944599437916851816945354868315261456776384445916406087260082456148940670452350,
  -68613713649625415750365222813810869908998905609294665179422869975980598017901436329360401996304489011784397390875452753455445778,
  -34327088034825330846991415813776899015247443785191077856821589292049042627254783546915889678031382946708416943234967709452050232,
  0,
  34327088034825330846991415813776899015247443785191077856821589292049042627254783546915889678031382946708416943234967709452050232,
  68613713649625415750365222813810869908998905609294665179422869975980598017901436329360401996304489011784397390875452753455445778,
  102819462118707721920624841465695667367056207627511944599437916851816945354868315261456776384445916406087260082456148940670452350,
  136904014048826416020621807715359448207770939738499441138475892373598493225624244695643540647199983281298837710054284997820046340,
  170827192904925167218355600231733802191929731993729155735211293211994248594211197998142172172861208739340472213193898748701804730,
  204549012367488773656851060619249029963359415154583335272258764998499378258487323650530566425469806963387015886162306231348444730,
  238029723465682118992550495973161931326151235623699414734608621185915624835155074862858667675747918327221820243297172139486215930,
  271229861430719269390085131952014737389221328845837580259591658166527387114483487309212995897153965627357213831362795200397253090,
  304110292214235318462596312780901424656523970519217997100016540657738370740333973833570273283195615826796161592670629487625159170,
  336632258616828491012942440829618879441021574637457643821109171822054383914032237045592662787397022884572095940109359844093716210,
  368757425972399562862388463320903678884087922579284989917247277180717761178683248753474779364761003766201780263914386735720375360,
  400447927334439305030325206406415933535165630125859750244379414055735997289468723126798900394256877649792410146704159805952842710,
  431666408111001803186172763086980179693694562573473338785257140242969915358669797877670945912307182181391999827180470687325804170,
  462376070095751451638246516074152323028161473399940710454323147883981844600689246532243633387077978593787920227171175361901258200,
  492540714843183417561821755601973099228503423189420105539135148833484034996377412291867431967760719288495703955074503298634572850,
  522124786336890588473257049700045318355758375647809858367955480212187937097729549693616735742192817710773970446744573018319386600,
  551093412900583559842207845114741393619531411928996575570208911154579894562709979897448902577929580390084536968529747506881296630,
  579412448302463132325791960076963297957074612286356426945866004077824714870965116694763322572668896635527155557997932215001890720,
  607048512004496052778235594983229188744320114906679470183823233624906174874128505041019148226224778447893722068149129639202151920,
  633969028509153281498803697731992966916940034531068588432282147149055961123486806623694064209146066012539378031818101975076616600,
  660142265757234790190264552440185603514855044142893890953039709663786259851728460965046007784584936553969866012752585570361564170,
  685537372531524655146344202941148313870373783315464067918085927627279336790794890495284936173676435290943131043961367462106914150,
  710124414822193871743145495795752922900956401628652886243563819573753217731979073954647319159173245236940508668501856843628564950,
  733874411111094782254467801313768918081957901304737665350463630342378065835515719575310330526577152365925696061359851672229496900,
  756759366533369288592606731652972908809584201304494444267159587316652438312377893958130743235507763078573276227860985874079736700,
  778752305876122344694652910716029923327254381493052023290741441767331761608238034762569443562481612206382154990974129949298562540,
  799827305375292240650490251814483692750654795413803709543777814037047241375158625718724479207981252673766711003476823242332197850,
  819959523273280333976318164186844696309416758173168991115451910884134206510129053728318663534755749222866946422852809271819574380,
  839125229101387031796118461456726383222939554200154473745232608468020573089399103361784438062117108357322510150079320033363269480,
  857301831652642579078184410158914731907389118138914372444134458235973741005990272533211003451548290764343363257443339932623964620,
  874467905612230385893604643693701201001877881317353018314696008241159010496619621989784269975590378421829613154491627935597400950,
  890603216814397403791498665985675051357760679054443879505809701899012102887074902616807091223247397696690662560897364079207036390,
  905688746096571865002580532751926096589893192071751913666769271757848410242916401671715633411906594773249790542623203719445511010,
  919706711723450488141330604789459287800724992654457298595010994630782021832751892066783630210943214381454186543200351288594039690,
  932640590356264406612214487853506931360165308956785065347904059771035127314184716043938048026456945028896386334593980724652091600,
  944475136545718668062791481282661749580152882993897003124207487463680877735680816522083279555568569414674453070169840854219562450,
  955196400732276363874021897272205421990346978866176982150637438514007464988438920418512158927662504381306730082301271821620454370,
  964791745747276075776495103702787255466990075472382080813189275195122247151969285503285250448580647469415258092362283805903824170,
  973249861830690734322467523754613670096826690309391829683916413194426370559513808325569903150464707547354788448634848534780164420,
  980560780241213439036862799957754592362509402029375782047579839936751377670438517011340329785512257370683200821890336083183513960,
  986715885723469786907936385937422161641316371942370113023286242059509701818137983851890721544013531628507294519771350530374502290,
  991707928817277101567620255032238374648565027577950660421605170079343442563567224536846548542041463465715808437105876312036845480,
  995531042505352453689383118206487435368256602689165899631360385472015338196168040074863834360475059434517665886901019530138569830,
  998180792590534754673220140020205897297799157794282507116187155977489602278361763908822767236987054248671370548770387764139301870,
  999654645076576130382989227515597563656832743077605154448059849279022064910340660649283872127060615690124759443038631942992868640]

/-- `case 91` (Util/Gauss_Legendre_Nodes_and_Weights.hpp:20943-21380), `weights`. -/
def weights91 : List Nat := [
  886241240669414176583428997272659952095873629864218483198701860035293304121982218787843456742000000000000000000000000000000000,
  2061987122032229660682079519572558502431133311377489861223235409837670618104481479551049044710000000000000000000000000000000000,
  3237045507972104977099456897119850304999714498789060873529392853721630974054986323046104607490000000000000000000000000000000000,
  4408439747302676819062998338541453699793783987515778167902928047196495100671901068089479117240000000000000000000000000000000000,
  5574668047479788997831806486800904060017335604320477596578279261833594162806991935628885364520000000000000000000000000000000000,
  6734334432268884665261133545907290916153375189093555330013450780080439180725055475607477080450000000000000000000000000000000000,
  7886066314628901599630610889240606088430354495576987790181849450606623345188356410401895913140000000000000000000000000000000000,
  9028504189234487748913381932791415643421085726805902198602644798923099057825862894459323287200000000000000000000000000000000000,
  10160300654415476728892193494355092612817190491238022991488692454556949777114285645816312075500000000000000000000000000000000000,
  11280121273769682983408717998063054243002103047015583830679868679786132163181089963435027200900000000000000000000000000000000000,
  12386645903556743054535060422604511289229097366349999869482253579595824074509184426125495028820000000000000000000000000000000000,
  13478570153830979194318622312248498199005469463598602651079125370939113380130512004568787692756000000000000000000000000000000000,
  14554606885208696084841070476255070272780418533424478449850633925614196227407678893315775235123000000000000000000000000000000000,
  15613487707050059750950593324281128680789827896847180600537388230593549539545786437850263386501000000000000000000000000000000000,
  16653964463061240172258023580360970491263249461327552837532022850943823507227066057935542295367000000000000000000000000000000000,
  17674810697521905060372045433455418965665330061843621111254642067188246298724861573267568677358800000000000000000000000000000000,
  18674823098168125421785619394192540814125445144345144780120434395722778655792063224435255061523670000000000000000000000000000000,
  19652822912969146604741664799971962710744340034053540632635715923954115139879002207057914803721040000000000000000000000000000000,
  20607657338598460740458973659126383222276549345955340988667344475504445141933080181459072113406126000000000000000000000000000000,
  21538200878685666296224340346889247017113686531995973145932138935138461369453113957144050825227885000000000000000000000000000000,
  22443356670097373373321222029220969365582291396342221916713466996804632686588714879562147334432153500000000000000000000000000000,
  23322057775598802835995997589507330238671166150288758775065451050734839785851214351527599192023997400000000000000000000000000000,
  24173268441322879422217858314720153134676535189605542766128232953603857398049732750176778878067081790000000000000000000000000000,
  24995985317534957432561496790715859640381740184408414468247319491757945441004509299792381854214022895000000000000000000000000000,
  25789238641236016188790009031169942926650967082463408628868937288091635091979858799627454927948944314500000000000000000000000000,
  26552093379198908103079215132722532605652760506396382548898494832379694115238053757083921274185585308340000000000000000000000000,
  27283650330082980278989837582960409896930373806874013628334984233532763699119046642746595595928424457391000000000000000000000000,
  27983047184323166381185883187076968524565080074973813210618675000634976344990765203904003613651803318869900000000000000000000000,
  28649459540541024396496267311387410528489380378531238267760872313882568124832679225100524780106225506721670000000000000000000000,
  29282101877277479718263998080779391788005568227022464854090036978734074062597482163518608337218038931911452000000000000000000000,
  29880228478900374932771204100718287818981461449639056129397949650980566484836266175998187236878179334882204900000000000000000000,
  30443134314594394903447172029273728255190305375067019832642662522702858411674153416820623339018141180492213020000000000000000000,
  30970155869396544215618836513784719382975764484446418958021766034860952873275538772926323342149367936767473762000000000000000000,
  31460671926297088545190334543420587974667744885238054155395393431109544796028123833596575167658289415552315680700000000000000000,
  31914104298483697288598766384774162655315715158698207444641820276174411156246316753895199907807929599648655497710000000000000000,
  32329918510865394484093895189589033684071181118334520698673616263072933991002176734239007162070024336768374131201000000000000000,
  32707624430072782948420426024818879788949184229226638727286258165659419992295384391381664482238833673720673727527790000000000000,
  33046776842191791200169050323848140375759904888776755350616952493551406736257322850641610223812743314994423717782608000000000000,
  33346975977549838636978352226690381450736952927457323599071385384742877396569249180455830621948510694449776458369763200000000000,
  33607867981935753109824247290512681764915071071401672524632770896988565396930958157286115130752845002197544000823947313000000000,
  33829145333697935793656199565297810966532371301070208192826141347332074430937914612675400021246930277614253149281723697900000000,
  34010547206229078665488665531002118474398496230768526602751399073660941564776152621193703846013375552342771537242806056230000000,
  34151859775410126185674500633298615539846236146217020783571998641595655290251796965648704525399311524805112012166865519313500000,
  34252916471651060067192246449992905127484437083838817816365444806945822252934493578971402361272294675011982163991100940876670000,
  34313598176231398572420195945116996870178565419152267330188784149564387810571493928218141057042824917711358724591115860095481800,
  34333833361708963163404600697098727068470762824845441197396884738256227293526517150056747038408728724535954349625022171743871029,
  34313598176231398572420195945116996870178565419152267330188784149564387810571493928218141057042824917711358724591115860095481800,
  34252916471651060067192246449992905127484437083838817816365444806945822252934493578971402361272294675011982163991100940876670000,
  34151859775410126185674500633298615539846236146217020783571998641595655290251796965648704525399311524805112012166865519313500000,
  34010547206229078665488665531002118474398496230768526602751399073660941564776152621193703846013375552342771537242806056230000000,
  33829145333697935793656199565297810966532371301070208192826141347332074430937914612675400021246930277614253149281723697900000000,
  33607867981935753109824247290512681764915071071401672524632770896988565396930958157286115130752845002197544000823947313000000000,
  33346975977549838636978352226690381450736952927457323599071385384742877396569249180455830621948510694449776458369763200000000000,
  33046776842191791200169050323848140375759904888776755350616952493551406736257322850641610223812743314994423717782608000000000000,
  32707624430072782948420426024818879788949184229226638727286258165659419992295384391381664482238833673720673727527790000000000000,
  32329918510865394484093895189589033684071181118334520698673616263072933991002176734239007162070024336768374131201000000000000000,
  31914104298483697288598766384774162655315715158698207444641820276174411156246316753895199907807929599648655497710000000000000000,
  31460671926297088545190334543420587974667744885238054155395393431109544796028123833596575167658289415552315680700000000000000000,
  30970155869396544215618836513784719382975764484446418958021766034860952873275538772926323342149367936767473762000000000000000000,
  30443134314594394903447172029273728255190305375067019832642662522702858411674153416820623339018141180492213020000000000000000000,
  29880228478900374932771204100718287818981461449639056129397949650980566484836266175998187236878179334882204900000000000000000000,
  29282101877277479718263998080779391788005568227022464854090036978734074062597482163518608337218038931911452000000000000000000000,
  28649459540541024396496267311387410528489380378531238267760872313882568124832679225100524780106225506721670000000000000000000000,
  27983047184323166381185883187076968524565080074973813210618675000634976344990765203904003613651803318869900000000000000000000000,
  27283650330082980278989837582960409896930373806874013628334984233532763699119046642746595595928424457391000000000000000000000000,
  26552093379198908103079215132722532605652760506396382548898494832379694115238053757083921274185585308340000000000000000000000000,
  25789238641236016188790009031169942926650967082463408628868937288091635091979858799627454927948944314500000000000000000000000000,
  24995985317534957432561496790715859640381740184408414468247319491757945441004509299792381854214022895000000000000000000000000000,
  24173268441322879422217858314720153134676535189605542766128232953603857398049732750176778878067081790000000000000000000000000000,
  23322057775598802835995997589507330238671166150288758775065451050734839785851214351527599192023997400000000000000000000000000000,
  22443356670097373373321222029220969365582291396342221916713466996804632686588714879562147334432153500000000000000000000000000000,
  21538200878685666296224340346889247017113686531995973145932138935138461369453113957144050825227885000000000000000000000000000000,
  20607657338598460740458973659126383222276549345955340988667344475504445141933080181459072113406126000000000000000000000000000000,
  19652822912969146604741664799971962710744340034053540632635715923954115139879002207057914803721040000000000000000000000000000000,
  18674823098168125421785619394192540814125445144345144780120434395722778655792063224435255061523670000000000000000000000000000000,
  17674810697521905060372045433455418965665330061843621111254642067188246298724861573267568677358800000000000000000000000000000000,
  16653964463061240172258023580360970491263249461327552837532022850943823507227066057935542295367000000000000000000000000000000000,
  15613487707050059750950593324281128680789827896847180600537388230593549539545786437850263386501000000000000000000000000000000000,
  14554606885208696084841070476255070272780418533424478449850633925614196227407678893315775235123000000000000000000000000000000000,
  13478570153830979194318622312248498199005469463598602651079125370939113380130512004568787692756000000000000000000000000000000000,
  12386645903556743054535060422604511289229097366349999869482253579595824074509184426125495028820000000000000000000000000000000000,
  11280121273769682983408717998063054243002103047015583830679868679786132163181089963435027200900000000000000000000000000000000000,
  10160300654415476728892193494355092612817190491238022991488692454556949777114285645816312075500000000000000000000000000000000000,
  9028504189234487748913381932791415643421085726805902198602644798923099057825862894459323287200000000000000000000000000000000000,
  7886066314628901599630610889240606088430354495576987790181849450606623345188356410401895913140000000000000000000000000000000000,
  6734334432268884665261133545907290916153375189093555330013450780080439180725055475607477080450000000000000000000000000000000000,
  5574668047479788997831806486800904060017335604320477596578279261833594162806991935628885364520000000000000000000000000000000000,
  4408439747302676819062998338541453699793783987515778167902928047196495100671901068089479117240000000000000000000000000000000000,
  3237045507972104977099456897119850304999714498789060873529392853721630974054986323046104607490000000000000000000000000000000000,
  2061987122032229660682079519572558502431133311377489861223235409837670618104481479551049044710000000000000000000000000000000000,
  886241240669414176583428997272659952095873629864218483198701860035293304121982218787843456742000000000000000000000000000000000]

/-- `case 92` (Util/Gauss_Legendre_Nodes_and_Weights.hpp:21382-21821), `nodes`. -/
def nodes92 : List Int := [
  -999662071356524554448781399594657012318842729999607636880313790221443620906162562055638014869933836257946789720404875470184128770,
  -998219902195450153782214565942942808164926001814094590234512141547539151498434382503374891370382444382158831377726766998482220890,
  -995627075269215169124287961356391090027932265983393131708444590141076276001406333281178753807739379300550738981276162102509145850,
  -991886004437253478622237199662527827381605302956578391828643923118412697311334986341447138763522972862511025445038499917568653060,
  -987000933924012040900040450391229043993564677789201950441571171742169035491384051039984582152898291635813897795864841178614873480,
  -980977481210154027373163058887535615395818843161610378616710578435489594904018028790078884865913974432461362821341770934039439640,
  -973822588026941934734001787142659191191721511235423038553566636508934361400613604476563744381817757973997432534391668031542303070,
  -965544504421595901364173806138602169530860883359577297233458972044025742537038614272054962770458713301675291269043985143690869390,
  -956152777134006946598194920445797703918998506504779502816540071225595168784635831436429058892602471707823652128092076066582090360,
  -945658237884362956543101669964785933949212997248533521488406428925013579137101712608677388649377369773700619634867531360766140750,
  -934072990607095498232951998777256031577527853360585581225630677047131679230917240943332547929991273618062542350842402000374032180,
  -921410397371076054635722905856515888772178469603803294167544255783943020524386160094225788972606054847080636083330033123159822630,
  -907685062910925043607568008291101783338914158795588123717977586030448916656232110688234011590071317594708441359871943504503562100,
  -892912817752776204232152380949257998944917593349071874158565508484945082573296251841485828456418073778444454126144280635786415880,
  -877110699939569669620166752383099323553535479551971314864746489168296340247287463522650027223933675916198037752415286451079579790,
  -860296935370446882979537565122631061752268204958695579939546421796815920671558990837347490796635952949211234656592844935934403180,
  -842490916773780940406621712657757876584501120591643562323053015857453685410165189990717446613323705146197288820659041602099583980,
  -823713181336488764363311510391657818432398916630850267709952587053782653414365953662831154136217316617072720040474170460112468890,
  -803985387014566437670438017813932393957762384373676536146110464222650458416304406681873428695520521444283564190658311105332306840,
  -783330287551689979201917797775277485339427275587255912875791340565909598907520334665203194409792938843661330094643450321219209130,
  -761771706234416275709129985095874230991884593108604726109931393417795476178810366540777133751719696462762406808197042109526219700,
  -739334508414088037773129275466122799859601405508058529497128337072925896958081230296740665468771190755468008040224410642397798510,
  -716044572827033202401024992910775231287456715890090871017980994647673515926054237158388688837936866862008088111019106536538795020,
  -691928761746073039103276770460675484558064182911950698727138576705326967880111719024897461973121220873094178903136220631027413130,
  -667014889997724077606074239400966286950601014063011037970447479886960093969056470826698851215391070718249252216513536310631516000,
  -641331692880801492841387767120848804342203496808422634912604550916819098154601271839367306428348062619909999091862947986252650320,
  -614908793023407720149117754364316276392831507890921403712109690113370757812949312932837130324057023747267278436737703198808858340,
  -587776666216520372693531676038949762142295497430962453603175475372948873388001217909760621591634624587873383383967742564399283860,
  -559966606263577766234105048681074828139743621197109428918680449772690634791149312741150332181237117808366269154120923796716414690,
  -531510688886597878431759780080549661494868405561638896638543061843423635390659044349543378266369034829765359369657005945974720270,
  -502441734730456513888600829912502707031938787376340506008892321104169046984701324346430968987387926959742132386983235896067221330,
  -472793271507991835096430111150156724465307304008248224552301815025984726319649717860190786404009136538289144906085086371920903820,
  -442599495329594231680832540992631739859105504030561246167992383924837954794068622335735167967669886655561948587248967944250614860,
  -411895231261881708602945602845532176031845490107792249420701910049222066754280446400512883479362462772654712362064881008451199670,
  -380715893160950569903094917457463491586026393380418590513459276886782183811259739833095299180696716149072412817644592376518021940,
  -349097442826528183794752472326976341987036550568730163216682586623218002791646590219375993598645282423736188606055281718845324260,
  -317076348524138107148509461711430579561593284882375139392330824431824260465324141395446035486792964898113234878308340039080739530,
  -284689542923116943093884758715528951943736513464156917989422302859638504428701450697032462750624307704110635970497255519450676900,
  -251974380498996180444597286193033936222533348848624667012297255970292546492059681680237829461082456812057666973083717177256650910,
  -218968594449380152453026949257906036188527051202709997329914269588432342159649083894622865602460735912436928321573658792834416030,
  -185710253173012450702391384717744051021071162054142981748481187735732574028403155325603303450918113923079262669341568395487244930,
  -152237716362226996438540730277914489674282978252028081099705164221943768384426217289833472369333172022707338104830031089139992390,
  -118589590759425929470548886722866069216388118827248833935764685567420786508993073643540234875539038329131356617536123878714884180,
  -84804685628614012678252330269733236182156375071454505104877539024171144973660317562920368893801992194081434273101453621978548202,
  -50921967993347923430376219889432921010790635457016502842804140895072100605169774854014334325817779781742595761409531537288108923,
  -16980517692728234384056534225145843185687517618247999996863107271487368998325353314920635056941897395715616345828873878534459028,
  16980517692728234384056534225145843185687517618247999996863107271487368998325353314920635056941897395715616345828873878534459028,
  50921967993347923430376219889432921010790635457016502842804140895072100605169774854014334325817779781742595761409531537288108923,
  84804685628614012678252330269733236182156375071454505104877539024171144973660317562920368893801992194081434273101453621978548202,
  118589590759425929470548886722866069216388118827248833935764685567420786508993073643540234875539038329131356617536123878714884180,
  152237716362226996438540730277914489674282978252028081099705164221943768384426217289833472369333172022707338104830031089139992390,
  185710253173012450702391384717744051021071162054142981748481187735732574028403155325603303450918113923079262669341568395487244930,
  218968594449380152453026949257906036188527051202709997329914269588432342159649083894622865602460735912436928321573658792834416030,
  251974380498996180444597286193033936222533348848624667012297255970292546492059681680237829461082456812057666973083717177256650910,
  284689542923116943093884758715528951943736513464156917989422302859638504428701450697032462750624307704110635970497255519450676900,
  317076348524138107148509461711430579561593284882375139392330824431824260465324141395446035486792964898113234878308340039080739530,
  349097442826528183794752472326976341987036550568730163216682586623218002791646590219375993598645282423736188606055281718845324260,
  380715893160950569903094917457463491586026393380418590513459276886782183811259739833095299180696716149072412817644592376518021940,
  411895231261881708602945602845532176031845490107792249420701910049222066754280446400512883479362462772654712362064881008451199670,
  442599495329594231680832540992631739859105504030561246167992383924837954794068622335735167967669886655561948587248967944250614860,
  472793271507991835096430111150156724465307304008248224552301815025984726319649717860190786404009136538289144906085086371920903820,
  502441734730456513888600829912502707031938787376340506008892321104169046984701324346430968987387926959742132386983235896067221330,
  531510688886597878431759780080549661494868405561638896638543061843423635390659044349543378266369034829765359369657005945974720270,
  559966606263577766234105048681074828139743621197109428918680449772690634791149312741150332181237117808366269154120923796716414690,
  587776666216520372693531676038949762142295497430962453603175475372948873388001217909760621591634624587873383383967742564399283860,
  614908793023407720149117754364316276392831507890921403712109690113370757812949312932837130324057023747267278436737703198808858340,
  641331692880801492841387767120848804342203496808422634912604550916819098154601271839367306428348062619909999091862947986252650320,
  667014889997724077606074239400966286950601014063011037970447479886960093969056470826698851215391070718249252216513536310631516000,
  691928761746073039103276770460675484558064182911950698727138576705326967880111719024897461973121220873094178903136220631027413130,
  716044572827033202401024992910775231287456715890090871017980994647673515926054237158388688837936866862008088111019106536538795020,
  739334508414088037773129275466122799859601405508058529497128337072925896958081230296740665468771190755468008040224410642397798510,
  761771706234416275709129985095874230991884593108604726109931393417795476178810366540777133751719696462762406808197042109526219700,
  783330287551689979201917797775277485339427275587255912875791340565909598907520334665203194409792938843661330094643450321219209130,
  803985387014566437670438017813932393957762384373676536146110464222650458416304406681873428695520521444283564190658311105332306840,
  823713181336488764363311510391657818432398916630850267709952587053782653414365953662831154136217316617072720040474170460112468890,
  842490916773780940406621712657757876584501120591643562323053015857453685410165189990717446613323705146197288820659041602099583980,
  860296935370446882979537565122631061752268204958695579939546421796815920671558990837347490796635952949211234656592844935934403180,
  877110699939569669620166752383099323553535479551971314864746489168296340247287463522650027223933675916198037752415286451079579790,
  892912817752776204232152380949257998944917593349071874158565508484945082573296251841485828456418073778444454126144280635786415880,
  907685062910925043607568008291101783338914158795588123717977586030448916656232110688234011590071317594708441359871943504503562100,
  921410397371076054635722905856515888772178469603803294167544255783943020524386160094225788972606054847080636083330033123159822630,
  934072990607095498232951998777256031577527853360585581225630677047131679230917240943332547929991273618062542350842402000374032180,
  945658237884362956543101669964785933949212997248533521488406428925013579137101712608677388649377369773700619634867531360766140750,
  956152777134006946598194920445797703918998506504779502816540071225595168784635831436429058892602471707823652128092076066582090360,
  965544504421595901364173806138602169530860883359577297233458972044025742537038614272054962770458713301675291269043985143690869390,
  973822588026941934734001787142659191191721511235423038553566636508934361400613604476563744381817757973997432534391668031542303070,
  980977481210154027373163058887535615395818843161610378616710578435489594904018028790078884865913974432461362821341770934039439640,
  987000933924012040900040450391229043993564677789201950441571171742169035491384051039984582152898291635813897795864841178614873480,
  991886004437253478622237199662527827381605302956578391828643923118412697311334986341447138763522972862511025445038499917568653060,
  995627075269215169124287961356391090027932265983393131708444590141076276001406333281178753807739379300550738981276162102509145850,
  998219902195450153782214565942942808164926001814094590234512141547539151498434382503374891370382444382158831377726766998482220890,
  999662071356524554448781399594657012318842729999607636880313790221443620906162562055638014869933836257946789720404875470184128770]

/-- `case 92` (Util/Gauss_Legendre_Nodes_and_Weights.hpp:21382-21821), `weights`. -/
def weights92 : List Nat := [
  867185178767142135353974325994490742396081482868707402134280123762980091366050061485073199007000000000000000000000000000000000,
  2017671366262838591879664715616607836564852006407878777690913275282121022399131720035205227790000000000000000000000000000000000,
  3167535943396097874259056208286439499646723333529931704394463593676576441821225211839197826660000000000000000000000000000000000,
  4313895331861700472339114873310141448175333324265423829902616757884310870310426235877707985300000000000000000000000000000000000,
  5455308908000870987156961843021761360519319870402498658129466039424519924576869579465109000900000000000000000000000000000000000,
  6590439334214895223177830345686006543904825124795286594843625593098560525534255190393503939600000000000000000000000000000000000,
  7717971837373568504532778160754724271610598603392233490690156682341085154219766178528576479000000000000000000000000000000000000,
  8836604056467877374548080107652747793592304742787972150311781302033466255831741630753946872200000000000000000000000000000000000,
  9945045019726082041770511195450425771582308946704082655940608178196274516938448709063553750930000000000000000000000000000000000,
  11042015922635394223985204870980809628555272734168668883140736029649350664338981120610780350520000000000000000000000000000000000,
  12126251362637710529296731475392387902660390599387888355889559460630306682577691186833907467240000000000000000000000000000000000,
  13196500705711138029111690620613496186848493253049426601901480138530150428509923042789238629500000000000000000000000000000000000,
  14251529488953925265807185497757633689987964773162169451171850648275763977238587382641090141472000000000000000000000000000000000,
  15290120825796501506906020148470586157531708279254782051425053236680310438644448668329434162270000000000000000000000000000000000,
  16311076800255958004814083149757953777470092164771049561903134678984762250288645310851765816829000000000000000000000000000000000,
  17313219843689776361140160684394759420272857461270661834279056423551497427096986471713790196615000000000000000000000000000000000,
  18295394090267557291187292386764251537942567525066648653366667086887789800151863181982288340388300000000000000000000000000000000,
  19256466708559474712372180829156783278733904065655807943339148350283265577576656190618410547267740000000000000000000000000000000,
  20195329207187483749564430695815516556853545157536329873878623369827063569471808901859916758946360000000000000000000000000000000,
  21110898712762461809976094192383192278863834579860057549267852669856402132691017891767888467992703000000000000000000000000000000,
  22002119218485857398743708553158699391569030624803041649760905118315566378849859175780679896567764800000000000000000000000000000,
  22867962801892542404340893309361152999258758017312592490894046435609456989936128140513132443168895300000000000000000000000000000,
  23707430810281912393537153411545440429206234951988495941728809464830015562801138187934955043848966620000000000000000000000000000,
  24519555012440974257170904381139639224044226310045331221307425355262705334960956056796351285700086829000000000000000000000000000,
  25303398715313225697548324915707543595224767560361488043173228723349797915830293585424730206918099737400000000000000000000000000,
  26058057844314179222457693410037083640812331384159064617596990620555396016571518683682495396829240742900000000000000000000000000,
  26782661986040323300488160249579411975556853373977834500094696282870187113263483306196920158464438027520000000000000000000000000,
  27476375392164173395179277564540829941791179888235805335881359056404928618115651727005849643896604072154000000000000000000000000,
  28138397943354404514451318802127207325246753853233689174765282751213530344121582013754709555492180289483400000000000000000000000,
  28767966072107175822379503473288361111410498690370866015884890426791128337284583195159545911167457137766960000000000000000000000,
  29364353643422812612746620479258931174755453002103609444563139390682256790143898434912853387371640780552780000000000000000000000,
  29926872792311073307867661472982160219541176358520424648464035208046244777405647013417500011873705615102667300000000000000000000,
  30454874717158320980635415926110767913762804840363342648364191896857877165642295022598750573084980980395409360000000000000000000,
  30947750428041031668040970016608380204764914717241948550839158549773449816035416485548935863807939389871687211000000000000000000,
  31404931449122177916140332745221101894131177609665431692574568892907444907605140394620391275371227050383657202560000000000000000,
  31825890474320085825972537634398550040907999100217564878917625732812505734419813028297127464545186682616641551693000000000000000,
  32210141975493329535744438113240114826413539976692643468578362195602307791397063175916328500821419507113565176616200000000000000,
  32557242762440045243161895589239837628371304236858293497216491367510766169628999663634143751265176947352831605096820000000000000,
  32866792494065660326468017230022900824492954347274830046633488070793115748798353054175980835747396659933104585729183800000000000,
  33138434140129381822620520781322047695532460644555851468040813054148448111179614560373371221719451936336602728170734980000000000,
  33371854393036810307801123761752477379504591177703154852651145018517824905249089941215535569673300240708676991353112939000000000,
  33566784029203676310075522554002863613901446035942374053259273578612449527468123109973636713149287430795481050040366167990000000,
  33722998219573871693800734914512818570562421309212113827144721455773402512302429878601701561004333809345721228300174994957000000,
  33840316788933601891418399263765214525782208597939259607142105449508376645888824692913498922063653632392661552269991797174490000,
  33918604423722549495027231437448180888778758393948056352486111252793997818912275506211224678461115757985838564793134325205265000,
  33957770828102347967002593682367567280963176968935385948436061011600261214603298097899264967498107247758805032077427329280601700,
  33957770828102347967002593682367567280963176968935385948436061011600261214603298097899264967498107247758805032077427329280601700,
  33918604423722549495027231437448180888778758393948056352486111252793997818912275506211224678461115757985838564793134325205265000,
  33840316788933601891418399263765214525782208597939259607142105449508376645888824692913498922063653632392661552269991797174490000,
  33722998219573871693800734914512818570562421309212113827144721455773402512302429878601701561004333809345721228300174994957000000,
  33566784029203676310075522554002863613901446035942374053259273578612449527468123109973636713149287430795481050040366167990000000,
  33371854393036810307801123761752477379504591177703154852651145018517824905249089941215535569673300240708676991353112939000000000,
  33138434140129381822620520781322047695532460644555851468040813054148448111179614560373371221719451936336602728170734980000000000,
  32866792494065660326468017230022900824492954347274830046633488070793115748798353054175980835747396659933104585729183800000000000,
  32557242762440045243161895589239837628371304236858293497216491367510766169628999663634143751265176947352831605096820000000000000,
  32210141975493329535744438113240114826413539976692643468578362195602307791397063175916328500821419507113565176616200000000000000,
  31825890474320085825972537634398550040907999100217564878917625732812505734419813028297127464545186682616641551693000000000000000,
  31404931449122177916140332745221101894131177609665431692574568892907444907605140394620391275371227050383657202560000000000000000,
  30947750428041031668040970016608380204764914717241948550839158549773449816035416485548935863807939389871687211000000000000000000,
  30454874717158320980635415926110767913762804840363342648364191896857877165642295022598750573084980980395409360000000000000000000,
  29926872792311073307867661472982160219541176358520424648464035208046244777405647013417500011873705615102667300000000000000000000,
  29364353643422812612746620479258931174755453002103609444563139390682256790143898434912853387371640780552780000000000000000000000,
  28767966072107175822379503473288361111410498690370866015884890426791128337284583195159545911167457137766960000000000000000000000,
  28138397943354404514451318802127207325246753853233689174765282751213530344121582013754709555492180289483400000000000000000000000,
  27476375392164173395179277564540829941791179888235805335881359056404928618115651727005849643896604072154000000000000000000000000,
  26782661986040323300488160249579411975556853373977834500094696282870187113263483306196920158464438027520000000000000000000000000,
  26058057844314179222457693410037083640812331384159064617596990620555396016571518683682495396829240742900000000000000000000000000,
  25303398715313225697548324915707543595224767560361488043173228723349797915830293585424730206918099737400000000000000000000000000,
  24519555012440974257170904381139639224044226310045331221307425355262705334960956056796351285700086829000000000000000000000000000,
  23707430810281912393537153411545440429206234951988495941728809464830015562801138187934955043848966620000000000000000000000000000,
  22867962801892542404340893309361152999258758017312592490894046435609456989936128140513132443168895300000000000000000000000000000,
  22002119218485857398743708553158699391569030624803041649760905118315566378849859175780679896567764800000000000000000000000000000,
  21110898712762461809976094192383192278863834579860057549267852669856402132691017891767888467992703000000000000000000000000000000,
  20195329207187483749564430695815516556853545157536329873878623369827063569471808901859916758946360000000000000000000000000000000,
  19256466708559474712372180829156783278733904065655807943339148350283265577576656190618410547267740000000000000000000000000000000,
  18295394090267557291187292386764251537942567525066648653366667086887789800151863181982288340388300000000000000000000000000000000,
  17313219843689776361140160684394759420272857461270661834279056423551497427096986471713790196615000000000000000000000000000000000,
  16311076800255958004814083149757953777470092164771049561903134678984762250288645310851765816829000000000000000000000000000000000,
  15290120825796501506906020148470586157531708279254782051425053236680310438644448668329434162270000000000000000000000000000000000,
  14251529488953925265807185497757633689987964773162169451171850648275763977238587382641090141472000000000000000000000000000000000,
  13196500705711138029111690620613496186848493253049426601901480138530150428509923042789238629500000000000000000000000000000000000,
  12126251362637710529296731475392387902660390599387888355889559460630306682577691186833907467240000000000000000000000000000000000,
  11042015922635394223985204870980809628555272734168668883140736029649350664338981120610780350520000000000000000000000000000000000,
  9945045019726082041770511195450425771582308946704082655940608178196274516938448709063553750930000000000000000000000000000000000,
  8836604056467877374548080107652747793592304742787972150311781302033466255831741630753946872200000000000000000000000000000000000,
  7717971837373568504532778160754724271610598603392233490690156682341085154219766178528576479000000000000000000000000000000000000,
  6590439334214895223177830345686006543904825124795286594843625593098560525534255190393503939600000000000000000000000000000000000,
  5455308908000870987156961843021761360519319870402498658129466039424519924576869579465109000900000000000000000000000000000000000,
  4313895331861700472339114873310141448175333324265423829902616757884310870310426235877707985300000000000000000000000000000000000,
  3167535943396097874259056208286439499646723333529931704394463593676576441821225211839197826660000000000000000000000000000000000,
  2017671366262838591879664715616607836564852006407878777690913275282121022399131720035205227790000000000000000000000000000000000,
  867185178767142135353974325994490742396081482868707402134280123762980091366050061485073199007000000000000000000000000000000000]

/-- `case 93` (Util/Gauss_Legendre_Nodes_and_Weights.hpp:21823-22266), `nodes`. -/
def nodes93 : List Int := [
  -999669260657168688326820857745187241280325160156497247466121922915694764704451958464090257134339726488453926631988057643529091410,
  -998257764171412775752493196293681305810040549643142666037866945062732839784463742383330993054703268995465748118626839438929194190,
  -995720046248950179380264604122186175252285092765267257665138062310639128255920267822395660100029383398368450198280625799165635840,
  -992058407192062741161221584057628652135535024521657367903385212762167502608173633071383756277286278923288499312633277019128338190,
  -987276911268572265931696323000710515814674480302371171470858444763841607466178466375617993975272141160800482335163815293901355620,
  -981380939533501606767866159454720167520558954133875786516986127142031539831554803646303472785086439979232870103073594385690376500,
  -974377142133410456975732109236891443228402340242014968553973103412709034241673507712429069338965996339001476449123996927502660590,
  -966273423040059125621511331258230344921107085388491322319126670127335384255471435285557653746058294545871824540629464786557017600,
  -957078929065123352230644283310283124962121151821721033721447055853244494653088605195311300596262379173149306171507205436690505840,
  -946804038848475454452154718577911517572122715237806908720356954468561728625215288928114789591924013054837337784375191699131438070,
  -935460350875189251367484848513280155474152767514715463437189754264742331371432691581167146260069358988864548422755314998420949680,
  -923060670265853484389249716365123238586213045170489101405086205900336768822122099159565043220439630150454471663170922185982662320,
  -909618994265676445699938522517054569564628302182008952818704332738070765420754253190429013470873812072874332580957099899895500600,
  -895150496414999027485759765053473830490390051557491736521570270101065744453571150253301486116746419410261523155353140175441404310,
  -879671509405002962140067541580194850156201297925557602640277550438083445151487309641844854182340092276793697232431802622590121560,
  -863199506631601715124533650646048238763943439890742474572700043516349409570843118592103187754931271453974951485485312221316608320,
  -845753082465261302946519737571421220493462805875725292608304163903599016096939951863536598785005905175615150017892433796168624820,
  -827351931257451916351476632983007100077568996119378700468049222577607784437470023358338378283177853039809305289682487783038900200,
  -808016825106586578646116469379007210755874058808819558785253561316596419532559546665516511920671528801308640600031294106952708680,
  -787769590408075201199532030100172572586971409200120185460188872330399031302782434129643788398827957676114183557095574779396133280,
  -766633083214692959396041265059606212679742003200204665596193941370377497932038984062009105220993192497571261606584501720484122580,
  -744631163434914460185216229500895732277307066712539983969422889779794797960859229542386611619153420817340030102761248576143767770,
  -721788667898239650908217728707763835487144842526636791410737159308307721312683600573409926254847974363404124160805488560568308610,
  -698131382317853409145990775560434119617278232738723412333460345778528687495028947096416423619713493108076997651294578229634831610,
  -673686012182227915571454891323098201866947685753962669816735703203707022964654194674819283128249183800285859766096397179308258500,
  -648480152608499893383398556379075089374903056077628596253930783234566722287637694585610738112854604942302188385068973994717636630,
  -622542257191635632724261532380659571661463519932538243817563220840070270077167813935357830997116624779032435138719480142907539670,
  -595901605884536044341298253633387556439563403483288479742967442339085369135510413193741693409360435739398349021892854100445238380,
  -568588271945331683331925687930522525538981359364107800664301229306860469861611212885680281002555164677305593797394448057433643860,
  -540633087989173217270796747984773250007599104267668297115172724901342190310576094370432078661474542839557080912787701268431073900,
  -512067611182835427355166711243704610382877600588427497944406120618576975566019452100370607790859407776212086777317870305548977930,
  -482924087621421657446984362655831094061185574175909911525036976905419430678685320772181030774766721995962341170278487892067880000,
  -453235415927379745929265464214109195187382275927984228357466845737094639124326668897086620372699627904281844575804709785881106860,
  -423035110112918960207128824320281815074244110465680261085988198210547752981769895365304966449530754602914513797107446622183265590,
  -392357261747749387298647332414555257965049545359831197640024999882122608441305455522044106266817825740571748264360454069083723950,
  -361236501474849727744629400660034333509321996870239443148481687268076864572669923799559641661859733365291472304790967461703447560,
  -329707959917705642792370280358575709629954646526266245877819571671370713021481654438947342381233508333389788842715628591705781890,
  -297807228023147909018027461642690950314228819198080736871161077525319765023686300825464918001984879597009313880493528890360630050,
  -265570316884556881013475784464668279252827577588315062705877031515929452548687126749099355502547316209304529505610016568595956880,
  -233033617090786443643250648713844420895201379630058495636944398493350266889430737318451913899320526818308028660628563573688122760,
  -200233857646696096572340175419340715421556194651086069127549502486801815851180967257439287217525730003945207713550116391436031010,
  -167208064511663456666399611408428284847256869943010018879119811426808840963175258040449476194191742763045204698538996826130721310,
  -133993518802880746725403009282180842980378442608208465562991063731796369596055200806133958696636354297249755228619754931786447970,
  -100627714710617278030890949871781091118252905982238872129561907150377023718622452480021364870986262216915697473729595033482757660,
  -67148317172955104387614339655030087918822481117858208354119144773723466657104935126507399127661386551889851943043132628897470521,
  -33593119357776561271187737333059646938175957813864061565308728717714244689943597064091519678378155983282164445083479545177215940,
  0,
  33593119357776561271187737333059646938175957813864061565308728717714244689943597064091519678378155983282164445083479545177215940,
  67148317172955104387614339655030087918822481117858208354119144773723466657104935126507399127661386551889851943043132628897470521,
  100627714710617278030890949871781091118252905982238872129561907150377023718622452480021364870986262216915697473729595033482757660,
  133993518802880746725403009282180842980378442608208465562991063731796369596055200806133958696636354297249755228619754931786447970,
  167208064511663456666399611408428284847256869943010018879119811426808840963175258040449476194191742763045204698538996826130721310,
  200233857646696096572340175419340715421556194651086069127549502486801815851180967257439287217525730003945207713550116391436031010,
  233033617090786443643250648713844420895201379630058495636944398493350266889430737318451913899320526818308028660628563573688122760,
  265570316884556881013475784464668279252827577588315062705877031515929452548687126749099355502547316209304529505610016568595956880,
  297807228023147909018027461642690950314228819198080736871161077525319765023686300825464918001984879597009313880493528890360630050,
  329707959917705642792370280358575709629954646526266245877819571671370713021481654438947342381233508333389788842715628591705781890,
  361236501474849727744629400660034333509321996870239443148481687268076864572669923799559641661859733365291472304790967461703447560,
  392357261747749387298647332414555257965049545359831197640024999882122608441305455522044106266817825740571748264360454069083723950,
  423035110112918960207128824320281815074244110465680261085988198210547752981769895365304966449530754602914513797107446622183265590,
  453235415927379745929265464214109195187382275927984228357466845737094639124326668897086620372699627904281844575804709785881106860,
  482924087621421657446984362655831094061185574175909911525036976905419430678685320772181030774766721995962341170278487892067880000,
  512067611182835427355166711243704610382877600588427497944406120618576975566019452100370607790859407776212086777317870305548977930,
  540633087989173217270796747984773250007599104267668297115172724901342190310576094370432078661474542839557080912787701268431073900,
  568588271945331683331925687930522525538981359364107800664301229306860469861611212885680281002555164677305593797394448057433643860,
  595901605884536044341298253633387556439563403483288479742967442339085369135510413193741693409360435739398349021892854100445238380,
  622542257191635632724261532380659571661463519932538243817563220840070270077167813935357830997116624779032435138719480142907539670,
  648480152608499893383398556379075089374903056077628596253930783234566722287637694585610738112854604942302188385068973994717636630,
  673686012182227915571454891323098201866947685753962669816735703203707022964654194674819283128249183800285859766096397179308258500,
  698131382317853409145990775560434119617278232738723412333460345778528687495028947096416423619713493108076997651294578229634831610,
  721788667898239650908217728707763835487144842526636791410737159308307721312683600573409926254847974363404124160805488560568308610,
  744631163434914460185216229500895732277307066712539983969422889779794797960859229542386611619153420817340030102761248576143767770,
  766633083214692959396041265059606212679742003200204665596193941370377497932038984062009105220993192497571261606584501720484122580,
  787769590408075201199532030100172572586971409200120185460188872330399031302782434129643788398827957676114183557095574779396133280,
  808016825106586578646116469379007210755874058808819558785253561316596419532559546665516511920671528801308640600031294106952708680,
  827351931257451916351476632983007100077568996119378700468049222577607784437470023358338378283177853039809305289682487783038900200,
  845753082465261302946519737571421220493462805875725292608304163903599016096939951863536598785005905175615150017892433796168624820,
  863199506631601715124533650646048238763943439890742474572700043516349409570843118592103187754931271453974951485485312221316608320,
  879671509405002962140067541580194850156201297925557602640277550438083445151487309641844854182340092276793697232431802622590121560,
  895150496414999027485759765053473830490390051557491736521570270101065744453571150253301486116746419410261523155353140175441404310,
  909618994265676445699938522517054569564628302182008952818704332738070765420754253190429013470873812072874332580957099899895500600,
  923060670265853484389249716365123238586213045170489101405086205900336768822122099159565043220439630150454471663170922185982662320,
  935460350875189251367484848513280155474152767514715463437189754264742331371432691581167146260069358988864548422755314998420949680,
  946804038848475454452154718577911517572122715237806908720356954468561728625215288928114789591924013054837337784375191699131438070,
  957078929065123352230644283310283124962121151821721033721447055853244494653088605195311300596262379173149306171507205436690505840,
  966273423040059125621511331258230344921107085388491322319126670127335384255471435285557653746058294545871824540629464786557017600,
  974377142133410456975732109236891443228402340242014968553973103412709034241673507712429069338965996339001476449123996927502660590,
  981380939533501606767866159454720167520558954133875786516986127142031539831554803646303472785086439979232870103073594385690376500,
  987276911268572265931696323000710515814674480302371171470858444763841607466178466375617993975272141160800482335163815293901355620,
  992058407192062741161221584057628652135535024521657367903385212762167502608173633071383756277286278923288499312633277019128338190,
  995720046248950179380264604122186175252285092765267257665138062310639128255920267822395660100029383398368450198280625799165635840,
  998257764171412775752493196293681305810040549643142666037866945062732839784463742383330993054703268995465748118626839438929194190,
  999669260657168688326820857745187241280325160156497247466121922915694764704451958464090257134339726488453926631988057643529091410]

/-- `case 93` (Util/Gauss_Legendre_Nodes_and_Weights.hpp:21823-22266), `weights`. -/
def weights93 : List Nat := [
  848737168067911004879633675769820421638179752390931871225578748274446294581010524963020387666000000000000000000000000000000000,
  1974768768686808388939671534641772766525909567151464438636326151473323307858914206696948169790000000000000000000000000000000000,
  3100240403099316775464744583258482572564837368871720840903008463006056828622133871433700232500000000000000000000000000000000000,
  4222357382406607998633334017443382425544062851083085113917223701843754549973037925188192520500000000000000000000000000000000000,
  5339737098169214613758400435863389337967488573392703626849566407662552066439239978012447725400000000000000000000000000000000000,
  6451097794311275889058021980354183303785673156304114890745762649279447439932956860775249139300000000000000000000000000000000000,
  7555179500769820751618885191375335079176791781690049187587252826031645980164875009625236309600000000000000000000000000000000000,
  8650734035428648314140581055788974859552546428711502740455423414351857750816920435129648986300000000000000000000000000000000000,
  9736523941887687826946727365683516295362554101688881528149516501725313602813683398021394446100000000000000000000000000000000000,
  10811323190542489382026108287678994050272745059916815210016994393214969938144737097780175073000000000000000000000000000000000000,
  11873918327447125098613777601761170086801777662361965574016372623022069051292498705410926811100000000000000000000000000000000000,
  12923109753185350456026926882709484348367424843971238428588520431688968398194157573766993857060000000000000000000000000000000000,
  13957713038007970724070298087466360623072923298282178358149872680583380241841522439446428683060000000000000000000000000000000000,
  14976560240671880953918871892361128036745711420712774958415560509112349292185865034364646035228000000000000000000000000000000000,
  15978501217782116788317429988826007114346767564572125025270636544407552589200050607906552379052000000000000000000000000000000000,
  16962404917329010901227040865566209948546877190499158235886155582138493746046140126675354149288000000000000000000000000000000000,
  17927160652813713178853219067569973313139273483645127544685097577296511377871007698961016321782500000000000000000000000000000000,
  18871679355508034614430014442209481185017699338480649416888597869764640170260896268732894416243800000000000000000000000000000000,
  19794894802927928668055443305344388662940512646694446965157640442283717486959717279460097238088760000000000000000000000000000000,
  20695764821868734488589357788066939579301680424190851525125791603249621545819597941875357913909400000000000000000000000000000000,
  21573272464499818015057553109437412501688738828598451486289276231781769577749757324315332042779981000000000000000000000000000000,
  22426427156109571889106757713650846413974971917968725248903563970919153179061252714552134977693606200000000000000000000000000000,
  23254265813157751689919975088665238399756889491963856404166164131975181286093341323528703999819073230000000000000000000000000000,
  24055853930344656153065418645903653988918984586293515726378612510245127633584712443582648730913691740000000000000000000000000000,
  24830286635452581891835285024248971932570348705605227629096272221382424892659984243457635221062052701000000000000000000000000000,
  25576689710757838922175711773051462304997056492390429276915864858157670666317763169774799748746807392800000000000000000000000000,
  26294220579853274752298035985245240253818157238203960372297805218551265928551879790444319554514399115210000000000000000000000000,
  26982069258762733048787724981164959580640013657526196657086435277332546967708169821251027973868704121998000000000000000000000000,
  27639459270270719713116170329369341422407365553422478511845942259730763316873392751900933809493735218282900000000000000000000000,
  28265648520433064357428881580323973894974203749284258915389682171833837703938788692968673732651005746246180000000000000000000000,
  28859930136277706362906772857596183679469953398821116434620598852809196034638257309954365819324442797471781000000000000000000000,
  29421633263748977485515750658353882689310498086416429212702284414143708986377025438023546498834013289578947500000000000000000000,
  29950123824993924165877638763971123012859182503653271744975932767099617865181071591126436200467532958187719630000000000000000000,
  30444805234135309496475881667880729376720526724156917353256560456919762366119439782394514643215127278388795524000000000000000000,
  30905119070722935908768079501881698706174879172893551530091200969134349138744298226163600578868901767066092807000000000000000000,
  31330545710102801925914986162673237235743967572780911848769739573112733455219826983794888037565974583441279340890000000000000000,
  31720604909992308832587556157163265815482916275347636888981193798223081003648457834715743990043038143077861074664000000000000000,
  32074856352599219581715913649055522586919090642228035763100679628796361782224917096768871410745410487128553691122340000000000000,
  32392900141672292706303432758523193144261153551283635752601975115894259891967379403604538483751863232465269546616364000000000000,
  32674377253922415754863987714537282137641201492911351979973243363571380594078563119315067174436226359421460152254168600000000000,
  32918969944304591132477179091708805909762434659233044054213974211876582920290763695890490166730102602166054497069450517000000000,
  33126402104703225972939640139175688601680245914334809219700139712706587020819961303715577599979175691711962275485978164200000000,
  33296439575615789345242170357114784159223264142719874730187800507446426460210259318490798701511077877495767214079156790890000000,
  33428890410482966294255234166695585411767280087875749057474211788268028596170743576220857524170759489102353139567067229395300000,
  33523605092366899732467129146396837382846293121402339990720412430414439164474748330340836101153544237039503823794810599318490000,
  33580476702732908204233226941719881381229609778085630179770640205294017230717694542630324399621457339985263813125272489354706200,
  33599441042144139694190835969504408128978672279973617099637788463938109355117174373694104166156952240082358378451403360115634685,
  33580476702732908204233226941719881381229609778085630179770640205294017230717694542630324399621457339985263813125272489354706200,
  33523605092366899732467129146396837382846293121402339990720412430414439164474748330340836101153544237039503823794810599318490000,
  33428890410482966294255234166695585411767280087875749057474211788268028596170743576220857524170759489102353139567067229395300000,
  33296439575615789345242170357114784159223264142719874730187800507446426460210259318490798701511077877495767214079156790890000000,
  33126402104703225972939640139175688601680245914334809219700139712706587020819961303715577599979175691711962275485978164200000000,
  32918969944304591132477179091708805909762434659233044054213974211876582920290763695890490166730102602166054497069450517000000000,
  32674377253922415754863987714537282137641201492911351979973243363571380594078563119315067174436226359421460152254168600000000000,
  32392900141672292706303432758523193144261153551283635752601975115894259891967379403604538483751863232465269546616364000000000000,
  32074856352599219581715913649055522586919090642228035763100679628796361782224917096768871410745410487128553691122340000000000000,
  31720604909992308832587556157163265815482916275347636888981193798223081003648457834715743990043038143077861074664000000000000000,
  31330545710102801925914986162673237235743967572780911848769739573112733455219826983794888037565974583441279340890000000000000000,
  30905119070722935908768079501881698706174879172893551530091200969134349138744298226163600578868901767066092807000000000000000000,
  30444805234135309496475881667880729376720526724156917353256560456919762366119439782394514643215127278388795524000000000000000000,
  29950123824993924165877638763971123012859182503653271744975932767099617865181071591126436200467532958187719630000000000000000000,
  29421633263748977485515750658353882689310498086416429212702284414143708986377025438023546498834013289578947500000000000000000000,
  28859930136277706362906772857596183679469953398821116434620598852809196034638257309954365819324442797471781000000000000000000000,
  28265648520433064357428881580323973894974203749284258915389682171833837703938788692968673732651005746246180000000000000000000000,
  27639459270270719713116170329369341422407365553422478511845942259730763316873392751900933809493735218282900000000000000000000000,
  26982069258762733048787724981164959580640013657526196657086435277332546967708169821251027973868704121998000000000000000000000000,
  26294220579853274752298035985245240253818157238203960372297805218551265928551879790444319554514399115210000000000000000000000000,
  25576689710757838922175711773051462304997056492390429276915864858157670666317763169774799748746807392800000000000000000000000000,
  24830286635452581891835285024248971932570348705605227629096272221382424892659984243457635221062052701000000000000000000000000000,
  24055853930344656153065418645903653988918984586293515726378612510245127633584712443582648730913691740000000000000000000000000000,
  23254265813157751689919975088665238399756889491963856404166164131975181286093341323528703999819073230000000000000000000000000000,
  22426427156109571889106757713650846413974971917968725248903563970919153179061252714552134977693606200000000000000000000000000000,
  21573272464499818015057553109437412501688738828598451486289276231781769577749757324315332042779981000000000000000000000000000000,
  20695764821868734488589357788066939579301680424190851525125791603249621545819597941875357913909400000000000000000000000000000000,
  19794894802927928668055443305344388662940512646694446965157640442283717486959717279460097238088760000000000000000000000000000000,
  18871679355508034614430014442209481185017699338480649416888597869764640170260896268732894416243800000000000000000000000000000000,
  17927160652813713178853219067569973313139273483645127544685097577296511377871007698961016321782500000000000000000000000000000000,
  16962404917329010901227040865566209948546877190499158235886155582138493746046140126675354149288000000000000000000000000000000000,
  15978501217782116788317429988826007114346767564572125025270636544407552589200050607906552379052000000000000000000000000000000000,
  14976560240671880953918871892361128036745711420712774958415560509112349292185865034364646035228000000000000000000000000000000000,
  13957713038007970724070298087466360623072923298282178358149872680583380241841522439446428683060000000000000000000000000000000000,
  12923109753185350456026926882709484348367424843971238428588520431688968398194157573766993857060000000000000000000000000000000000,
  11873918327447125098613777601761170086801777662361965574016372623022069051292498705410926811100000000000000000000000000000000000,
  10811323190542489382026108287678994050272745059916815210016994393214969938144737097780175073000000000000000000000000000000000000,
  9736523941887687826946727365683516295362554101688881528149516501725313602813683398021394446100000000000000000000000000000000000,
  8650734035428648314140581055788974859552546428711502740455423414351857750816920435129648986300000000000000000000000000000000000,
  7555179500769820751618885191375335079176791781690049187587252826031645980164875009625236309600000000000000000000000000000000000,
  6451097794311275889058021980354183303785673156304114890745762649279447439932956860775249139300000000000000000000000000000000000,
  5339737098169214613758400435863389337967488573392703626849566407662552066439239978012447725400000000000000000000000000000000000,
  4222357382406607998633334017443382425544062851083085113917223701843754549973037925188192520500000000000000000000000000000000000,
  3100240403099316775464744583258482572564837368871720840903008463006056828622133871433700232500000000000000000000000000000000000,
  1974768768686808388939671534641772766525909567151464438636326151473323307858914206696948169790000000000000000000000000000000000,
  848737168067911004879633675769820421638179752390931871225578748274446294581010524963020387666000000000000000000000000000000000]

/-- `case 94` (Util/Gauss_Legendre_Nodes_and_Weights.hpp:22268-22714), `nodes`. -/
def nodes94 : List Int := [
  -999676222955049794478464366747409848139627829966572506673737759905723442651189267932880924067061702690501603815519149356133686620,
  -998294431021687606243546768058108042268091990605787668178390743912746154028802994191156586850072613878675353093442013093553340190,
  -995810084201718879423190934329107625238200964530385004113521488019911054475193214069234888790903978987805198884713794355461257150,
  -992225375400876658453786226905471650962464631321317772913031234287457941574950808183457265662301703267890521491503878198258858260,
  -987544198320479788678849762273555804440481684177014212712765385607136940597475465728034562662185439005200354360206993196375108820,
  -981771709883378229724351495417030267613749904916552385766402906155711797184499682847435264084558395702704418791949120133595981380,
  -974914283790465042598315322290912137196945548117358911677960291663019188014914455568255394417521196683096581692378756041470107640,
  -966979495881343388944631968710041505060598929440661576819020135023497546375268414744560500859525898761361421686982525354966541660,
  -957976113742955023987958964211027895290644502348615627088197462423480450582993685383866682994538723873846678504835362283796614540,
  -947914086348761722901954497614121229896636040741233283589383273688349175038163131291969578549387336143277137743897728001125010900,
  -936804532802825378210920024727472995242274601280116651650789997055697675078847616634477913375119667228030530437119005740167903200,
  -924659729937951474687734347705735326661574475709144286774326693691407238888517979518594479630811443798441525545465851283583296360,
  -911493098694057485956075786934980212480860796188506196670955683127783286587417879426289678271317316120265755468235835486974523560,
  -897319189258767992575133736578988059508835299423273974685272387291425515061058845424830940724600080318193391234899064135787989010,
  -882153664972872260771444347183289471857227221030741040690138115942063929591033863380916536048946301857977792043419148128635281380,
  -866013285012198673277729201207061921090687709201026088220471061858814820189124881386369711396720838140809127639271428801672681260,
  -848915885862033400150190403137137154357769045291369543045186611938334166903179103704058614263532842154232893931284941180354511900,
  -830880361603017377979288666448146904367211322881633514629513708719840353270564303081794958980769160973039355268140028860025652250,
  -811926643029482883145495289557898822298981060277520795773405334717802186891801091735455698519998873057736071548891648491219972890,
  -792075675622845165701440470454136154953557954125613998143120482642452870648589413612915949944527248839387989393547105038834904250,
  -771349396404123699387453908757799276327366709247219679369003849972888943790142735333148079557788764337533849784563493359286825250,
  -749770709691013517218791630829918522774825347988665074200804559073770025115461053906018107076922270277233518723498591059816010380,
  -727363461786199059394636720788962871763141207922283799933294002829787637752146194254687182721841786325080131440716718561554008500,
  -704152414624820241445597884335076885574816244466164089365274309822495157489341978794045724716108417011869203835436837095365145200,
  -680163218410172621032254201433052036138924387297520533540692827227635126387247889243102089387054378140909897187411366074773320960,
  -655422383267855255435989393002321078921744846911619745974310997083327509062350202841884585335376294628399166928627226366991317970,
  -629957249949673190129546625483633665189697467096240387128483509730290913923192227347286788401124856058707108112412713393302456140,
  -603795959619657222727320674947337989748020588318004394841105785931542919785492743772487725375355506558795500182864944095087440030,
  -576967422755581620592581388704413648802464093784612859662241676654253798371706756589923861698363237687922746001089035860011217030,
  -549501287200340399755088240113266045478299406261543522677338940048505657003385488355532517479064621346637271011067384147732977890,
  -521427905398483940978551968247777716737108697507760625443080403276137645292466391576282708644843237999971508689705574458705670180,
  -492778300854119354040167915332133733135761653235448184125139380372989120023986703068304207727917508862545259849841835459946879080,
  -463584133847239278989446940447910116503396314123237042777989246674722350329992962301746207873153081937221536465582578133643800560,
  -433877666446363893398922792804568935469571347189232783822487542461482989308680918334678766419034670854382252396057357459839371350,
  -403691726856158945048468748336183399349271200036631156957266459981200510285866569874482426175713743703895393192810647968768835750,
  -373059673139427839806139135404556152155173859107362779769180092652830165390852423785143331024391503388144355959289704617380210340,
  -342015356353567405830147012994406180627723128000904625945888254972731203929842109857321210010031671837942684561224304867268727230,
  -310593083142224186454217839275709604963353501438097898605088250813904149574716566252880055022891065961745059710000828833253216900,
  -278827577823490286044163594893108464608364675488588672842984904111966468210360304239252160049881646229833363285612122059434410130,
  -246753944016534251555295321377782621229833120264582987797549274426625834041991987457434336294946753505605187163851757465600354620,
  -214407625849072610544954074596143552386529539771582782018122079146716338346067509724451693292064702082058350505694485720668999300,
  -181824368788550945981578342253664054732464364826965719134791833685211208571238955331811281520190314118157076840324443307161276200,
  -149040180140319261529605407442555929296518461656166225215931640947578283087778832296127125335705301795751046506494174422828338500,
  -116091289256454421500442570234603160479283072919194245027571807853978131433959885285949554447004107297565140085424759698358337670,
  -83014107499202232824768723107025176417043558061516401479919197347566710268517324068867553752082357464334556529141296856788225022,
  -49845188003282920429641253038689169566283455164808057764982381180119095880229952120300105809797794712884946677197763684911378696,
  -16621185281526033776403068422555514809710624958139981264825866658291756446223936967784837036177877370179905562530154641239384985,
  16621185281526033776403068422555514809710624958139981264825866658291756446223936967784837036177877370179905562530154641239384985,
  49845188003282920429641253038689169566283455164808057764982381180119095880229952120300105809797794712884946677197763684911378696,
  83014107499202232824768723107025176417043558061516401479919197347566710268517324068867553752082357464334556529141296856788225022,
  116091289256454421500442570234603160479283072919194245027571807853978131433959885285949554447004107297565140085424759698358337670,
  149040180140319261529605407442555929296518461656166225215931640947578283087778832296127125335705301795751046506494174422828338500,
  181824368788550945981578342253664054732464364826965719134791833685211208571238955331811281520190314118157076840324443307161276200,
  214407625849072610544954074596143552386529539771582782018122079146716338346067509724451693292064702082058350505694485720668999300,
  246753944016534251555295321377782621229833120264582987797549274426625834041991987457434336294946753505605187163851757465600354620,
  278827577823490286044163594893108464608364675488588672842984904111966468210360304239252160049881646229833363285612122059434410130,
  310593083142224186454217839275709604963353501438097898605088250813904149574716566252880055022891065961745059710000828833253216900,
  342015356353567405830147012994406180627723128000904625945888254972731203929842109857321210010031671837942684561224304867268727230,
  373059673139427839806139135404556152155173859107362779769180092652830165390852423785143331024391503388144355959289704617380210340,
  403691726856158945048468748336183399349271200036631156957266459981200510285866569874482426175713743703895393192810647968768835750,
  433877666446363893398922792804568935469571347189232783822487542461482989308680918334678766419034670854382252396057357459839371350,
  463584133847239278989446940447910116503396314123237042777989246674722350329992962301746207873153081937221536465582578133643800560,
  492778300854119354040167915332133733135761653235448184125139380372989120023986703068304207727917508862545259849841835459946879080,
  521427905398483940978551968247777716737108697507760625443080403276137645292466391576282708644843237999971508689705574458705670180,
  549501287200340399755088240113266045478299406261543522677338940048505657003385488355532517479064621346637271011067384147732977890,
  576967422755581620592581388704413648802464093784612859662241676654253798371706756589923861698363237687922746001089035860011217030,
  603795959619657222727320674947337989748020588318004394841105785931542919785492743772487725375355506558795500182864944095087440030,
  629957249949673190129546625483633665189697467096240387128483509730290913923192227347286788401124856058707108112412713393302456140,
  655422383267855255435989393002321078921744846911619745974310997083327509062350202841884585335376294628399166928627226366991317970,
  680163218410172621032254201433052036138924387297520533540692827227635126387247889243102089387054378140909897187411366074773320960,
  704152414624820241445597884335076885574816244466164089365274309822495157489341978794045724716108417011869203835436837095365145200,
  727363461786199059394636720788962871763141207922283799933294002829787637752146194254687182721841786325080131440716718561554008500,
  749770709691013517218791630829918522774825347988665074200804559073770025115461053906018107076922270277233518723498591059816010380,
  771349396404123699387453908757799276327366709247219679369003849972888943790142735333148079557788764337533849784563493359286825250,
  792075675622845165701440470454136154953557954125613998143120482642452870648589413612915949944527248839387989393547105038834904250,
  811926643029482883145495289557898822298981060277520795773405334717802186891801091735455698519998873057736071548891648491219972890,
  830880361603017377979288666448146904367211322881633514629513708719840353270564303081794958980769160973039355268140028860025652250,
  848915885862033400150190403137137154357769045291369543045186611938334166903179103704058614263532842154232893931284941180354511900,
  866013285012198673277729201207061921090687709201026088220471061858814820189124881386369711396720838140809127639271428801672681260,
  882153664972872260771444347183289471857227221030741040690138115942063929591033863380916536048946301857977792043419148128635281380,
  897319189258767992575133736578988059508835299423273974685272387291425515061058845424830940724600080318193391234899064135787989010,
  911493098694057485956075786934980212480860796188506196670955683127783286587417879426289678271317316120265755468235835486974523560,
  924659729937951474687734347705735326661574475709144286774326693691407238888517979518594479630811443798441525545465851283583296360,
  936804532802825378210920024727472995242274601280116651650789997055697675078847616634477913375119667228030530437119005740167903200,
  947914086348761722901954497614121229896636040741233283589383273688349175038163131291969578549387336143277137743897728001125010900,
  957976113742955023987958964211027895290644502348615627088197462423480450582993685383866682994538723873846678504835362283796614540,
  966979495881343388944631968710041505060598929440661576819020135023497546375268414744560500859525898761361421686982525354966541660,
  974914283790465042598315322290912137196945548117358911677960291663019188014914455568255394417521196683096581692378756041470107640,
  981771709883378229724351495417030267613749904916552385766402906155711797184499682847435264084558395702704418791949120133595981380,
  987544198320479788678849762273555804440481684177014212712765385607136940597475465728034562662185439005200354360206993196375108820,
  992225375400876658453786226905471650962464631321317772913031234287457941574950808183457265662301703267890521491503878198258858260,
  995810084201718879423190934329107625238200964530385004113521488019911054475193214069234888790903978987805198884713794355461257150,
  998294431021687606243546768058108042268091990605787668178390743912746154028802994191156586850072613878675353093442013093553340190,
  999676222955049794478464366747409848139627829966572506673737759905723442651189267932880924067061702690501603815519149356133686620]

/-- `case 94` (Util/Gauss_Legendre_Nodes_and_Weights.hpp:22268-22714), `weights`. -/
def weights94 : List Nat := [
  830871612682162494641546324375110864622214772073354996306860580556700126636722129665488752230000000000000000000000000000000000,
  1933219888725418943117627276007503669467235640684606925906970568553982626148711147691891265000000000000000000000000000000000000,
  3035065891038628027391956071494313349622464910174608463289401498410611729985059490748259772600000000000000000000000000000000000,
  4133699875407776483297139787506201723983605129216868626900566024228415829080394702007257755000000000000000000000000000000000000,
  5227794289507767545305521727815984297614069076068191409093287041710482303185498034415734260400000000000000000000000000000000000,
  6316120091036448223107649301060368862949793025888269012935156932277869848131538719650604004800000000000000000000000000000000000,
  7397469288142356200862878400173604337143789040230854145349902670410762624761934887151235811600000000000000000000000000000000000,
  8470645094534635999909656799352419068597016113125390856858996789111004940173376263079689057500000000000000000000000000000000000,
  9534460832865158250063170209913436205485903556201448372678642631566603026415621947810732768900000000000000000000000000000000000,
  10587740564954122236724351096210902231098571468504686887324668301619932534630643646739237159600000000000000000000000000000000000,
  11629320161122414596074128371219900399536145487205108089507231910790983626459702725029260026500000000000000000000000000000000000,
  12658048497638994444825113790018657387449911642092621944239557961332273176490112635047684374900000000000000000000000000000000000,
  13672788690606878506440193315997260749636782447329197541682286828068008663163744501114940415900000000000000000000000000000000000,
  14672419334499464204264545023850102448632969904487332677982657689727820425468089959145960736870000000000000000000000000000000000,
  15655835732515557860022434178430984755561396445706492655154398656439622237325578428083859994407000000000000000000000000000000000,
  16621951112665496638328752427813175222796186080696267754843134301779212580082109670513998198978000000000000000000000000000000000,
  17569697826143251998725577000192767478805379587117793860626879417393621487623633554849140619151000000000000000000000000000000000,
  18498028525665910953809255591494559021564117437628021141943208689108858067168333430222808386488600000000000000000000000000000000,
  19405917321982004886051800026086951175057592396908921777412082733910695635058596342128272278896800000000000000000000000000000000,
  20292360917011132179888428918419543281458743435181803853977460604711590400375091640252377301117410000000000000000000000000000000,
  21156379712221389815045280290546095914092238899915120431041477247850914577643257496227088463623600000000000000000000000000000000,
  21997018890940077173397226087643130964912711310629575105331409422473577755168324414441884517974955000000000000000000000000000000,
  22813349473355236410012070975246214148680925583178977742230717506277001298009987859508427835536655900000000000000000000000000000,
  23604469343014382280507866889049636329444384006629392435913050469703623851997813920642629111197352730000000000000000000000000000,
  24369504243668988306346566168485050200635997366551583662155107005504774144965380609985343243879910629000000000000000000000000000,
  25107608745352405128580344841856660994333091169292621405553388560581546426285780908393574406983549656000000000000000000000000000,
  25817967178616728164402717929829991508160081673382008188701056529574680843501824101748929141822788340600000000000000000000000000,
  26499794535891699196693932875880993691379211743359607800563833278666807038280884280279803623442889409340000000000000000000000000,
  27152337338966564723882561748402358451502012743236494578983387805147321818924074364644844092033426052278000000000000000000000000,
  27774874471634220620651047878232676173053538011937508227694355149997978699391875726074019239937680936353200000000000000000000000,
  28366717976576106812729494326586184823634492491703639601892449435834920107523571573337189690608966529461440000000000000000000000,
  28927213815606255842275210753159175521187022021554870112391614602173043872204123655194421149051970692675613000000000000000000000,
  29455742592433676397191581194975818742243052584341698885732907550669937560108509620533378075472259548415534600000000000000000000,
  29951720237143869200087989765408368675583638951895117367421696946397158828807970426345424336534131834979213910000000000000000000,
  30414598651642712203281424697861409640598730306111805488830541999912707547443544805802754785355315698695145567000000000000000000,
  30843866315349187411106827997891756795972253120373296117141036125565198161231633805588382926658503647691169543170000000000000000,
  31239048850467417882191117786170373146551581119353036792653736512196019936839304948253971878945488902096227276241000000000000000,
  31599709546213200464773991812514367459783942629138557615204972884629916421089467285047749015015832279905981362842800000000000000,
  31925449841415613925840750113179530354839642331102338589717475431831008087830344175874871547392038262249384033943190000000000000,
  32215909764960307112818144914739401551540650486482969151796353685478679575816590126916353919193911779508886563991046700000000000,
  32470768333587679484508444784101409034383932950460666736562891967459201576122681228685752078538058930156827684245226570000000000,
  32689743906606307152528451964960793766336400989113591117847637470230736438022385343524009096137893829793608633832060024000000000,
  32872594497129590726147713398167942051606217214031305658636334337604622458106108107121069787565637689643003248162377018940000000,
  33019118039491655076670741901823830141039693992684088317545113206035865231825541104983772024253483806983744110611368183123000000,
  33129152612546963216005173939685571442033388602122471165027332684947866270327187028409209213650742492043021532231732154572400000,
  33202576618606863798766357852121868838333948366495413341853122427082574216076756293733671858432992451456238657796279538945684000,
  33239308917815320800705241474045643107053331738400403367563647924463265368090582933353042000034805124136824013947600621615335380,
  33239308917815320800705241474045643107053331738400403367563647924463265368090582933353042000034805124136824013947600621615335380,
  33202576618606863798766357852121868838333948366495413341853122427082574216076756293733671858432992451456238657796279538945684000,
  33129152612546963216005173939685571442033388602122471165027332684947866270327187028409209213650742492043021532231732154572400000,
  33019118039491655076670741901823830141039693992684088317545113206035865231825541104983772024253483806983744110611368183123000000,
  32872594497129590726147713398167942051606217214031305658636334337604622458106108107121069787565637689643003248162377018940000000,
  32689743906606307152528451964960793766336400989113591117847637470230736438022385343524009096137893829793608633832060024000000000,
  32470768333587679484508444784101409034383932950460666736562891967459201576122681228685752078538058930156827684245226570000000000,
  32215909764960307112818144914739401551540650486482969151796353685478679575816590126916353919193911779508886563991046700000000000,
  31925449841415613925840750113179530354839642331102338589717475431831008087830344175874871547392038262249384033943190000000000000,
  31599709546213200464773991812514367459783942629138557615204972884629916421089467285047749015015832279905981362842800000000000000,
  31239048850467417882191117786170373146551581119353036792653736512196019936839304948253971878945488902096227276241000000000000000,
  30843866315349187411106827997891756795972253120373296117141036125565198161231633805588382926658503647691169543170000000000000000,
  30414598651642712203281424697861409640598730306111805488830541999912707547443544805802754785355315698695145567000000000000000000,
  29951720237143869200087989765408368675583638951895117367421696946397158828807970426345424336534131834979213910000000000000000000,
  29455742592433676397191581194975818742243052584341698885732907550669937560108509620533378075472259548415534600000000000000000000,
  28927213815606255842275210753159175521187022021554870112391614602173043872204123655194421149051970692675613000000000000000000000,
  28366717976576106812729494326586184823634492491703639601892449435834920107523571573337189690608966529461440000000000000000000000,
  27774874471634220620651047878232676173053538011937508227694355149997978699391875726074019239937680936353200000000000000000000000,
  27152337338966564723882561748402358451502012743236494578983387805147321818924074364644844092033426052278000000000000000000000000,
  26499794535891699196693932875880993691379211743359607800563833278666807038280884280279803623442889409340000000000000000000000000,
  25817967178616728164402717929829991508160081673382008188701056529574680843501824101748929141822788340600000000000000000000000000,
  25107608745352405128580344841856660994333091169292621405553388560581546426285780908393574406983549656000000000000000000000000000,
  24369504243668988306346566168485050200635997366551583662155107005504774144965380609985343243879910629000000000000000000000000000,
  23604469343014382280507866889049636329444384006629392435913050469703623851997813920642629111197352730000000000000000000000000000,
  22813349473355236410012070975246214148680925583178977742230717506277001298009987859508427835536655900000000000000000000000000000,
  21997018890940077173397226087643130964912711310629575105331409422473577755168324414441884517974955000000000000000000000000000000,
  21156379712221389815045280290546095914092238899915120431041477247850914577643257496227088463623600000000000000000000000000000000,
  20292360917011132179888428918419543281458743435181803853977460604711590400375091640252377301117410000000000000000000000000000000,
  19405917321982004886051800026086951175057592396908921777412082733910695635058596342128272278896800000000000000000000000000000000,
  18498028525665910953809255591494559021564117437628021141943208689108858067168333430222808386488600000000000000000000000000000000,
  17569697826143251998725577000192767478805379587117793860626879417393621487623633554849140619151000000000000000000000000000000000,
  16621951112665496638328752427813175222796186080696267754843134301779212580082109670513998198978000000000000000000000000000000000,
  15655835732515557860022434178430984755561396445706492655154398656439622237325578428083859994407000000000000000000000000000000000,
  14672419334499464204264545023850102448632969904487332677982657689727820425468089959145960736870000000000000000000000000000000000,
  13672788690606878506440193315997260749636782447329197541682286828068008663163744501114940415900000000000000000000000000000000000,
  12658048497638994444825113790018657387449911642092621944239557961332273176490112635047684374900000000000000000000000000000000000,
  11629320161122414596074128371219900399536145487205108089507231910790983626459702725029260026500000000000000000000000000000000000,
  10587740564954122236724351096210902231098571468504686887324668301619932534630643646739237159600000000000000000000000000000000000,
  9534460832865158250063170209913436205485903556201448372678642631566603026415621947810732768900000000000000000000000000000000000,
  8470645094534635999909656799352419068597016113125390856858996789111004940173376263079689057500000000000000000000000000000000000,
  7397469288142356200862878400173604337143789040230854145349902670410762624761934887151235811600000000000000000000000000000000000,
  6316120091036448223107649301060368862949793025888269012935156932277869848131538719650604004800000000000000000000000000000000000,
  5227794289507767545305521727815984297614069076068191409093287041710482303185498034415734260400000000000000000000000000000000000,
  4133699875407776483297139787506201723983605129216868626900566024228415829080394702007257755000000000000000000000000000000000000,
  3035065891038628027391956071494313349622464910174608463289401498410611729985059490748259772600000000000000000000000000000000000,
  1933219888725418943117627276007503669467235640684606925906970568553982626148711147691891265000000000000000000000000000000000000,
  830871612682162494641546324375110864622214772073354996306860580556700126636722129665488752230000000000000000000000000000000000]

/-- `case 95` (Util/Gauss_Legendre_Nodes_and_Weights.hpp:22716-23164), `nodes`. -/
def nodes95 : List Int := [
  -999682967707192019483573499623227492053318190764088977059260330734256192435159202109752319086535133562307111801531322371660557650,
  -998329952516746331615185023021732293429021998548509148934986917602280200807574875986122269485508040070457425122652710188567154950,
  -995897311188423402061515735452842108114861670048389865498632673766087474337620126725554922069997646771041651299843594530677514340,
  -992387135003501404489007395656823257654664455602174762497643452220008858047553832360190396601563939383356389525689584279823764060,
  -987803155906081287771609210267257178270672178957677652751750045056352244176632314414604965317398036635679244415014062524875402070,
  -982150318221625646102970869531650901041790617045721170175217986272726424081182841374167743113823504226371175279728944703196119550,
  -975434733411440911686142374579832670645956346668607074615803248979756960910841299219348905462581278949614240445161802833085441410,
  -967663666022196524115608941874902284646247687463861569751768422656978075282228945530353532673256626885227709411614741748248175080,
  -958845523847909449427667101142842751079581401783416078127267315510942322084886380751093343913198265745086752683112712168951636070,
  -948989848174295482042094922135074307261863638777220682568918811089713215900364741245220748290399919066981944545450652776747597450,
  -938107303198478037136253980725997180681383331028928250411809806370340511604260810633920418876609170865546560889151604341264746180,
  -926209664377719775633337969408961932808127530027122381890398002895509123984847444064317109343430448694741954806148511265645671450,
  -913309805634067347397871327295681144698081544207056299756048187870219019784010980772796917630588500107506553440353881799441008990,
  -899421685396393203740819738779921503742975664773115468096061365736685572593845969017426358653718639180126722016766345876931885430,
  -884560331481440557481542165750103421496938320779767702330706009850722762490133046086398341924388478052392556149604002086112938320,
  -868741824824129904742857793524387250297229162360632541288779647766915864971449573002251447501209294841065172828508631901632756730,
  -851983282071784280841952168647158581553031970684304971192060945668494098685632720775064122535743868389379346725295202921054902310,
  -834302837059601322207667365947626813569907265467492072405443484315241429181363026393654566056543990366551141988880088573980587930,
  -815719621186609653860229620898905731289793701749518451394907057603174509203419260190037443400474384469820186329341173406606996400,
  -796253742712893188667862788753426110200572924084949371338720199553593966939966858018743464476806161936727966334877250273877572900,
  -775926265000223956226837850592158053871511413726409356628424235367692518086729472519016144228140438627029261100549333895047738670,
  -754759183719492392253656515325417266208296901955887505794258975593168308260032261404321669325871676691222834911831131597511306760,
  -732775403049502118342710969299710695913691070566234479953750347390329017609716482244849903073785413222583996770166555303888786200,
  -709998710892823105801742982684734509547081268804850331777820771173236168759132207491833698118823814847877098210658369910128420060,
  -686453753135482209243488554856873441861382679573310623657302852856070587512870682859383024395083090329794193158590248636386992910,
  -662166006978318026262700936057387987989611054769143738633555471956387575406177756938519478735635002917979401455540897276644657040,
  -637161753368840027179724860511464629015919947495534226580689209368165079884892308612785513935900436326299469031822434046443573970,
  -611468048563410696074958268580060894873434913339159128090261395517225862602121467256350119002716132250219842520280753166860390450,
  -585112694850514089292358503597483519618486085696547038853212678300439293385500006971813902017008717402771748067986202849437493120,
  -558124210466784403949682407246020749851857293490388366362922804634845241436825738999998927405835159975051488639190702487816403410,
  -530531798738343289256909367452984067269701297408099995069510609597134722482888924733555175088469482766744467152229640333097418360,
  -502365316480834043324796972747022173997339307368089207828688889815646666343997233278503167597649516430005239240694040821141887920,
  -473655241692343777570580766948865430734572563172590103011659712869411674026615476948356591167653181536683649535485087052160065600,
  -444432640574170340460531680699199138927009784585191026246029424245516868702380442362669160866981022168162823917660800091859236440,
  -414729133915118515972148187530323025364069263138440544693143468313693891370107718816174377435441438900006816362996402783354970470,
  -384576862875699010848323446551268375907501365176347971016488642401152076757754978636793358266350378543167414408604692714262416750,
  -354008454209253305823369256584624441253463840643493412279275955906876634820385873628805268455627702243881642774806497293919635980,
  -323056984957636889277322416080176055584218056884952289372351397669656206111207127860036230461677793642788370938019283809109419080,
  -291755946659662073485054343459786023017058517142642557756862246456134209046117054998888822221181503720797131118319355965652254780,
  -260139209111028909464385597949174294809795757351324793298701613667515020184204616484397393416851461858629570231048350208893517510,
  -228240983714958103638210341000215032492173215857833028083834516633860558512851293165475551709880713951235148335176521220513894450,
  -196095786463182778498270954665938395869285142680167378345909800696330062860327286210792325526146403848595211912591453886766627780,
  -163738400587355934951945188446057818330888690434522490615390750618399394250218790675565923667473787289945310902721979400680686770,
  -131203838921287136147017106515162168821494227603567605677286567975170480606053890697939534743557555219413007486253240341381915250,
  -98527306014734857520206851656964747549834773694631074870556304822337401426679065331152719480082754225615869314883492014419422052,
  -65744160039749798572533081868810459031323537864645246291317035665174758051667372761513963535267327942704813526509734952059418700,
  -32889874530788938676985995672218424681578843835129407961633752461133847455858748233766424310106456425684612129321536873239863547,
  0,
  32889874530788938676985995672218424681578843835129407961633752461133847455858748233766424310106456425684612129321536873239863547,
  65744160039749798572533081868810459031323537864645246291317035665174758051667372761513963535267327942704813526509734952059418700,
  98527306014734857520206851656964747549834773694631074870556304822337401426679065331152719480082754225615869314883492014419422052,
  131203838921287136147017106515162168821494227603567605677286567975170480606053890697939534743557555219413007486253240341381915250,
  163738400587355934951945188446057818330888690434522490615390750618399394250218790675565923667473787289945310902721979400680686770,
  196095786463182778498270954665938395869285142680167378345909800696330062860327286210792325526146403848595211912591453886766627780,
  228240983714958103638210341000215032492173215857833028083834516633860558512851293165475551709880713951235148335176521220513894450,
  260139209111028909464385597949174294809795757351324793298701613667515020184204616484397393416851461858629570231048350208893517510,
  291755946659662073485054343459786023017058517142642557756862246456134209046117054998888822221181503720797131118319355965652254780,
  323056984957636889277322416080176055584218056884952289372351397669656206111207127860036230461677793642788370938019283809109419080,
  354008454209253305823369256584624441253463840643493412279275955906876634820385873628805268455627702243881642774806497293919635980,
  384576862875699010848323446551268375907501365176347971016488642401152076757754978636793358266350378543167414408604692714262416750,
  414729133915118515972148187530323025364069263138440544693143468313693891370107718816174377435441438900006816362996402783354970470,
  444432640574170340460531680699199138927009784585191026246029424245516868702380442362669160866981022168162823917660800091859236440,
  473655241692343777570580766948865430734572563172590103011659712869411674026615476948356591167653181536683649535485087052160065600,
  502365316480834043324796972747022173997339307368089207828688889815646666343997233278503167597649516430005239240694040821141887920,
  530531798738343289256909367452984067269701297408099995069510609597134722482888924733555175088469482766744467152229640333097418360,
  558124210466784403949682407246020749851857293490388366362922804634845241436825738999998927405835159975051488639190702487816403410,
  585112694850514089292358503597483519618486085696547038853212678300439293385500006971813902017008717402771748067986202849437493120,
  611468048563410696074958268580060894873434913339159128090261395517225862602121467256350119002716132250219842520280753166860390450,
  637161753368840027179724860511464629015919947495534226580689209368165079884892308612785513935900436326299469031822434046443573970,
  662166006978318026262700936057387987989611054769143738633555471956387575406177756938519478735635002917979401455540897276644657040,
  686453753135482209243488554856873441861382679573310623657302852856070587512870682859383024395083090329794193158590248636386992910,
  709998710892823105801742982684734509547081268804850331777820771173236168759132207491833698118823814847877098210658369910128420060,
  732775403049502118342710969299710695913691070566234479953750347390329017609716482244849903073785413222583996770166555303888786200,
  754759183719492392253656515325417266208296901955887505794258975593168308260032261404321669325871676691222834911831131597511306760,
  775926265000223956226837850592158053871511413726409356628424235367692518086729472519016144228140438627029261100549333895047738670,
  796253742712893188667862788753426110200572924084949371338720199553593966939966858018743464476806161936727966334877250273877572900,
  815719621186609653860229620898905731289793701749518451394907057603174509203419260190037443400474384469820186329341173406606996400,
  834302837059601322207667365947626813569907265467492072405443484315241429181363026393654566056543990366551141988880088573980587930,
  851983282071784280841952168647158581553031970684304971192060945668494098685632720775064122535743868389379346725295202921054902310,
  868741824824129904742857793524387250297229162360632541288779647766915864971449573002251447501209294841065172828508631901632756730,
  884560331481440557481542165750103421496938320779767702330706009850722762490133046086398341924388478052392556149604002086112938320,
  899421685396393203740819738779921503742975664773115468096061365736685572593845969017426358653718639180126722016766345876931885430,
  913309805634067347397871327295681144698081544207056299756048187870219019784010980772796917630588500107506553440353881799441008990,
  926209664377719775633337969408961932808127530027122381890398002895509123984847444064317109343430448694741954806148511265645671450,
  938107303198478037136253980725997180681383331028928250411809806370340511604260810633920418876609170865546560889151604341264746180,
  948989848174295482042094922135074307261863638777220682568918811089713215900364741245220748290399919066981944545450652776747597450,
  958845523847909449427667101142842751079581401783416078127267315510942322084886380751093343913198265745086752683112712168951636070,
  967663666022196524115608941874902284646247687463861569751768422656978075282228945530353532673256626885227709411614741748248175080,
  975434733411440911686142374579832670645956346668607074615803248979756960910841299219348905462581278949614240445161802833085441410,
  982150318221625646102970869531650901041790617045721170175217986272726424081182841374167743113823504226371175279728944703196119550,
  987803155906081287771609210267257178270672178957677652751750045056352244176632314414604965317398036635679244415014062524875402070,
  992387135003501404489007395656823257654664455602174762497643452220008858047553832360190396601563939383356389525689584279823764060,
  995897311188423402061515735452842108114861670048389865498632673766087474337620126725554922069997646771041651299843594530677514340,
  998329952516746331615185023021732293429021998548509148934986917602280200807574875986122269485508040070457425122652710188567154950,
  999682967707192019483573499623227492053318190764088977059260330734256192435159202109752319086535133562307111801531322371660557650]

/-- `case 95` (Util/Gauss_Legendre_Nodes_and_Weights.hpp:22716-23164), `weights`. -/
def weights95 : List Nat := [
  813564249454116501054404039377358554799629627435070514283852079958538295266313837793303762530000000000000000000000000000000000,
  1892968377922935762778612881297599171630403755868040346350407392992201686039238609871120637500000000000000000000000000000000000,
  2971924240818190718439050241076415803305297940046753972697059838089961484471607490834602696400000000000000000000000000000000000,
  4047803316371759906879691600503157054634820611197064100388469299917128044260343624375249159000000000000000000000000000000000000,
  5119330329927718280032445518798593540230710933009360212361061649483636211870346661769823491000000000000000000000000000000000000,
  6185326261033323769311757322911196526476817633024680115452117818043825624546230551152000221000000000000000000000000000000000000,
  7244632443933199672625903838977788163576633981812069306275164802647050251277018362211987193000000000000000000000000000000000000,
  8296100874530990238146095548608880823567857299147269614581353509928675914729148037003794398000000000000000000000000000000000000,
  9338593083876397086740622119953088682547470036682162228298427621136142665265377009743834010000000000000000000000000000000000000,
  10370980703116096840839844528016563903479909428496622208258749577762161887752410501242994704900000000000000000000000000000000000,
  11392146459085844039242426651433145033437468898551331550957989417807144024083250950405305322800000000000000000000000000000000000,
  12400985296116061040181502159169973212486837867380597537765912706452511610078607103750282013700000000000000000000000000000000000,
  13396405534368285441365743746242928950771446971032912140102883905938489987900766846530520670400000000000000000000000000000000000,
  14377330033659082083575082136842417099643696110450040014292451552564869670805920715964651177690000000000000000000000000000000000,
  15342697350288356634592013235636650311131830909824668474345231090492828307700963645139763613470000000000000000000000000000000000,
  16291462880991043265915585671326601458581941057451823736028537328378348791687439374154481148176000000000000000000000000000000000,
  17222599990716984413339709858706052618066333153743753823693471051875951067161149053341605332326000000000000000000000000000000000,
  18135101122045144107597008095462962041391592578161539038280725028640387566976533126214183922915800000000000000000000000000000000,
  19027978884545706393070123889312829036446260985814770508697171017332770316008583946925230512195400000000000000000000000000000000,
  19900267122657211244871650972868847624237197560805679208992780864381276445301621972123477586622710000000000000000000000000000000,
  20751021960784901817908466805241618371436786498402998047299133755217191158087562914028710323478640000000000000000000000000000000,
  21579322824411401206768669745623965239167898690429716350695706268313155438561370268325904178022229000000000000000000000000000000,
  22384273436069391840419042444434612639662318803229233699188398267648428204697412540207857690382096500000000000000000000000000000,
  23165002785071391749200193406346702468457047730760115252702924961447913773782530248681367006531356000000000000000000000000000000,
  23920666069930610077075193249664771777601475824440451814784112734756610520594387498999534811585527740000000000000000000000000000,
  24650445612442619976129684907602332945028248778906419588870774113436531070469315367472871480580397373000000000000000000000000000,
  25353551742432012936599860502255260257943070194969908146440218516807722446464381076110282343783973260700000000000000000000000000,
  26029223652202271532900610573098041409216179737177133522172076230979644681150330441867174859825117651110000000000000000000000000,
  26676730219761354318968475882195997245892119925170275042760986549970649120995431505484668691941545931780000000000000000000000000,
  27295370799930222665783818463381580016299798939140088032173747370754503215433257156757937427140184136076700000000000000000000000,
  27884475982476914243093377831628784732270373305189193113346732955961035860093119285457780224814875906953040000000000000000000000,
  28443408316454862613118837217596988927785437453362674363511438212281425099954011965972217996583193173367342000000000000000000000,
  28971562999961011534841839239246202017816046375554192833486618437200164587092713361976450530864654824875522900000000000000000000,
  29468368534566882375151464270803218202849293106695704882499380930351942995955442979629252529362072493537889790000000000000000000,
  29933287343714112252400118134642109429750641939980671182970216281852548974448509206330820060316770982153086836000000000000000000,
  30365816354405066777243672252985023213917433584584872745317216027606390999321716710607629971695847568119357090600000000000000000,
  30765487541558914752957767691112367029965039742342951421561882950069013822724593290486015235633493265522152481450000000000000000,
  31131868434443998256822603975147344822828433832461360131212482748299346697496743155375418045659560430055470830186000000000000000,
  31464562584638402013217429855682404598683350582995066014327740030190056852255175362231090083761182507581851527525000000000000000,
  31763209995012280290979001983538383538182756816818855264257986463498718814678480038724027919925840471681883367009762000000000000,
  32027487509267695292957333099137550250327199647046526487007577157869550050802311003671802126460926708092462819086189600000000000,
  32257109161614414347348348830240340674993467530795942631895173426307901919987342087798385951575263972919686899995204261000000000,
  32451826486203259266859459429819692389834337374037249964660878924520750907673670505867998306172451257724289992966107509200000000,
  32611428785982154256706533738328847481429894324654552224276743361147048664883345094243455352323001360804336246809155902430000000,
  32735743360683932269196586719436362560771656778079946816243900192407650942310796549791333091872083702593526128660172752724200000,
  32824635693699186693088884305059834897766857860739034085817442932226291834961029739753674940509805558946197307450325042305090000,
  32878009597631948235576458224321297447592497322771960697146022347693405438655980095290032818037557209617379420825018216649504000,
  32895807318380677932173986329810631604172359918653393982537340594721012106572338256616188854533277561591990984154747932407949926,
  32878009597631948235576458224321297447592497322771960697146022347693405438655980095290032818037557209617379420825018216649504000,
  32824635693699186693088884305059834897766857860739034085817442932226291834961029739753674940509805558946197307450325042305090000,
  32735743360683932269196586719436362560771656778079946816243900192407650942310796549791333091872083702593526128660172752724200000,
  32611428785982154256706533738328847481429894324654552224276743361147048664883345094243455352323001360804336246809155902430000000,
  32451826486203259266859459429819692389834337374037249964660878924520750907673670505867998306172451257724289992966107509200000000,
  32257109161614414347348348830240340674993467530795942631895173426307901919987342087798385951575263972919686899995204261000000000,
  32027487509267695292957333099137550250327199647046526487007577157869550050802311003671802126460926708092462819086189600000000000,
  31763209995012280290979001983538383538182756816818855264257986463498718814678480038724027919925840471681883367009762000000000000,
  31464562584638402013217429855682404598683350582995066014327740030190056852255175362231090083761182507581851527525000000000000000,
  31131868434443998256822603975147344822828433832461360131212482748299346697496743155375418045659560430055470830186000000000000000,
  30765487541558914752957767691112367029965039742342951421561882950069013822724593290486015235633493265522152481450000000000000000,
  30365816354405066777243672252985023213917433584584872745317216027606390999321716710607629971695847568119357090600000000000000000,
  29933287343714112252400118134642109429750641939980671182970216281852548974448509206330820060316770982153086836000000000000000000,
  29468368534566882375151464270803218202849293106695704882499380930351942995955442979629252529362072493537889790000000000000000000,
  28971562999961011534841839239246202017816046375554192833486618437200164587092713361976450530864654824875522900000000000000000000,
  28443408316454862613118837217596988927785437453362674363511438212281425099954011965972217996583193173367342000000000000000000000,
  27884475982476914243093377831628784732270373305189193113346732955961035860093119285457780224814875906953040000000000000000000000,
  27295370799930222665783818463381580016299798939140088032173747370754503215433257156757937427140184136076700000000000000000000000,
  26676730219761354318968475882195997245892119925170275042760986549970649120995431505484668691941545931780000000000000000000000000,
  26029223652202271532900610573098041409216179737177133522172076230979644681150330441867174859825117651110000000000000000000000000,
  25353551742432012936599860502255260257943070194969908146440218516807722446464381076110282343783973260700000000000000000000000000,
  24650445612442619976129684907602332945028248778906419588870774113436531070469315367472871480580397373000000000000000000000000000,
  23920666069930610077075193249664771777601475824440451814784112734756610520594387498999534811585527740000000000000000000000000000,
  23165002785071391749200193406346702468457047730760115252702924961447913773782530248681367006531356000000000000000000000000000000,
  22384273436069391840419042444434612639662318803229233699188398267648428204697412540207857690382096500000000000000000000000000000,
  21579322824411401206768669745623965239167898690429716350695706268313155438561370268325904178022229000000000000000000000000000000,
  20751021960784901817908466805241618371436786498402998047299133755217191158087562914028710323478640000000000000000000000000000000,
  19900267122657211244871650972868847624237197560805679208992780864381276445301621972123477586622710000000000000000000000000000000,
  19027978884545706393070123889312829036446260985814770508697171017332770316008583946925230512195400000000000000000000000000000000,
  18135101122045144107597008095462962041391592578161539038280725028640387566976533126214183922915800000000000000000000000000000000,
  17222599990716984413339709858706052618066333153743753823693471051875951067161149053341605332326000000000000000000000000000000000,
  16291462880991043265915585671326601458581941057451823736028537328378348791687439374154481148176000000000000000000000000000000000,
  15342697350288356634592013235636650311131830909824668474345231090492828307700963645139763613470000000000000000000000000000000000,
  14377330033659082083575082136842417099643696110450040014292451552564869670805920715964651177690000000000000000000000000000000000,
  13396405534368285441365743746242928950771446971032912140102883905938489987900766846530520670400000000000000000000000000000000000,
  12400985296116061040181502159169973212486837867380597537765912706452511610078607103750282013700000000000000000000000000000000000,
  11392146459085844039242426651433145033437468898551331550957989417807144024083250950405305322800000000000000000000000000000000000,
  10370980703116096840839844528016563903479909428496622208258749577762161887752410501242994704900000000000000000000000000000000000,
  9338593083876397086740622119953088682547470036682162228298427621136142665265377009743834010000000000000000000000000000000000000,
  8296100874530990238146095548608880823567857299147269614581353509928675914729148037003794398000000000000000000000000000000000000,
  7244632443933199672625903838977788163576633981812069306275164802647050251277018362211987193000000000000000000000000000000000000,
  6185326261033323769311757322911196526476817633024680115452117818043825624546230551152000221000000000000000000000000000000000000,
  5119330329927718280032445518798593540230710933009360212361061649483636211870346661769823491000000000000000000000000000000000000,
  4047803316371759906879691600503157054634820611197064100388469299917128044260343624375249159000000000000000000000000000000000000,
  2971924240818190718439050241076415803305297940046753972697059838089961484471607490834602696400000000000000000000000000000000000,
  1892968377922935762778612881297599171630403755868040346350407392992201686039238609871120637500000000000000000000000000000000000,
  813564249454116501054404039377358554799629627435070514283852079958538295266313837793303762530000000000000000000000000000000000]

/-- `case 96` (Util/Gauss_Legendre_Nodes_and_Weights.hpp:23166-23618), `nodes`. -/
def nodes96 : List Int := [
  -999689503883230766827690105784365519281545462732461992001355963011212653147095345222748291390826804220597236492186315326135502960,
  -998364375863181677724149439526719363387594139835729016891559450917295536501973290023375744023343408713131947863814840212658553370,
  -995981842987209290650399084879356600517402559209160942880793907372368921374716136830153921743643029568037418140550279337291603930,
  -992543900323762624571892297701601140876925069735707750068172215371281824872193800043545752907398795854489335455077211235324254940,
  -988054126329623799480762772418451194550464600614148887207877401156905882861122202816237578453674945122910640402116574527942451790,
  -982517263563014677447045831882548117944975813090718914004773757591083726209083659234339521796461500307339432564137872434633043220,
  -975939174585136466452601034241879909198402954596115603400259297730511016293399907616947163237491836842527146594986504961171948670,
  -968326828463264212173659366443651058392644248094522138585312120734830554054836236760201369737749051896975736599445374009260751910,
  -959688291448742539300068025884734741187348366471208900598873429374824712667364004572365318290256747393610554465757207711500355040,
  -950032717784437635756098948443863487809719004506856486739443639808976471619574067671662976639538285675663809249490258508860524990,
  -939370339752755216931857379431615218355268147050047160510273332406647141996305816206598316206368368274974326371087580787484440700,
  -927712456722308690964690472696546386905782485701430506544774963081908239425027528289080577092537165436326448171406065990896506450,
  -915071423120898074205884466150421542087076418905500877117406339548581839103228621801795609385249388607808127683848401510878101080,
  -901460635315852341319232697309686837840871379740481506579266044503032512421422416030910675268770019011116574733285642497339851140,
  -886894517402420416056877433393786158831992645040230133205097627596624253702557463000373886164511638604827316839400064262506426580,
  -871388505909296502873774764493042714723198637127069591437803548146382522212389513082033354044982198958802158394757869339680665360,
  -854959033434601455462786969893569260642796030025999112696249225627765077789835548278158630493109135083512230945753522816622869420,
  -837623511228187121494302816764692856979480843148001738960210620098708156979391173954462028085917927961879618511518868454259880110,
  -819400310737931675538999624224478035135347219383611990098575071366035178192959504885892580576793259996904694203008424857245724780,
  -800308744139140817228796143971327683216455575426421063567149592166752064762204278984884829428646968788103366555917755787299655850,
  -780369043867433217603604455889317748020183381435905390928405157835267305138016557344210914286035579005269563586656527176078242730,
  -759602341176647498702970441119621615853418684350547741412728775252892607259035339923050405943479093279262853364717358875246133150,
  -738030643744400132851165731096497105229719705861680951140613353701216082701274318294586819348782140112338449410628997231219880200,
  -715676812348967626225144148057624855297579970512471934187440071473578768823473683865244085227564497549144538170322240496071771880,
  -692564536642171561344245769818242559454096529258855489584773463821636428827536265981507429827975844243991617569545691029177894490,
  -668718310043916153952557207572774189024490620911704757911132879805887321387423840078995189353820617728233664489159908363168807830,
  -644163403784967106798412350063301562303099204075871448445682020819475200108349659974318023655984852882104620704588758444283928270,
  -618925840125468570386369286987862797385924304294141342487770721406086018176383909930628540332251669013674138804904250462631890060,
  -593032364777572080683555755043758213173602137510373636686090915255732704221145851661019515269240785874522213011019804231265201300,
  -566510418561397168404250195083462632310682605494345364489720845465916094758075626702533954125920972323657731282503166365633257290,
  -539388108324357436226802597325560638174530629095712514920104670631484293283877859071398900160583225998147641069486260519664496140,
  -511694177154667673585509745428854303249444739448960953730297467018095925163830474376016505148847824367909440727592660684740246240,
  -483457973920596359768405609363895255471251618004483453413924281346616444802638786305472944568278652407999486507383174508683375490,
  -454709422167743008635676148086307813004007115883888850887079258739890671051394318673036352942625010458483758232175146111924796470,
  -425478988407300545364819203569997944814789637986203948554858863170327847361402499432475668583551362993090836034008730964391856950,
  -395797649828908603285000243135164159712183375710416393716132767968699845221149575745623745949926747821916888628030044371490920830,
  -365696861472313635030895593995473177231187449038795704553403303625506656100641225523526361201492673383397660707767939079959864090,
  -335208522892625422616325624805628672187087106202021355653481493059813028750933023723420582044722340139071567317807229044648340860,
  -304364944354496353023929779295203318151177118276838665184512181389916823535885971437188418990937276057753835910965964254705752820,
  -273198812591049141487272155724564794448183995393695187834775585982084271562324335021960013698767914882298591673313677154808907060,
  -241743156163840012327931903740627670311558222423913512016196990789234547912747839525751256704612776515527604617471395521990790880,
  -210031310460567203602847185712295775144230109414068965053770301402462397283525604370123151467556375845722019433907281352432246270,
  -178096882367618602759402625176491514914388330285849051486669085819833884824877944599745698505639600598386075777233687894149933030,
  -145973714654896941989107333343326460474308991614777125513554459683425048456160968800515029599304509178629063944646932894718709500,
  -113695850110665920911208095414328080625474625430467506419787039634789575823109153958277369715411277906842976506638805800637447250,
  -81297495464425558994471262974752858778294887311664644582759177775181497794263045797242037166485142127269672992166879574195315889,
  -48812985136049731111958204261275057080951125710578123979468860329517444314320607582742751037483052180816126285875437874564646195,
  -16276744849602969579134563695238453562045890115891553003407280421972654692737754769139193261060985860949775900482484880541505787,
  16276744849602969579134563695238453562045890115891553003407280421972654692737754769139193261060985860949775900482484880541505787,
  48812985136049731111958204261275057080951125710578123979468860329517444314320607582742751037483052180816126285875437874564646195,
  81297495464425558994471262974752858778294887311664644582759177775181497794263045797242037166485142127269672992166879574195315889,
  113695850110665920911208095414328080625474625430467506419787039634789575823109153958277369715411277906842976506638805800637447250,
  145973714654896941989107333343326460474308991614777125513554459683425048456160968800515029599304509178629063944646932894718709500,
  178096882367618602759402625176491514914388330285849051486669085819833884824877944599745698505639600598386075777233687894149933030,
  210031310460567203602847185712295775144230109414068965053770301402462397283525604370123151467556375845722019433907281352432246270,
  241743156163840012327931903740627670311558222423913512016196990789234547912747839525751256704612776515527604617471395521990790880,
  273198812591049141487272155724564794448183995393695187834775585982084271562324335021960013698767914882298591673313677154808907060,
  304364944354496353023929779295203318151177118276838665184512181389916823535885971437188418990937276057753835910965964254705752820,
  335208522892625422616325624805628672187087106202021355653481493059813028750933023723420582044722340139071567317807229044648340860,
  365696861472313635030895593995473177231187449038795704553403303625506656100641225523526361201492673383397660707767939079959864090,
  395797649828908603285000243135164159712183375710416393716132767968699845221149575745623745949926747821916888628030044371490920830,
  425478988407300545364819203569997944814789637986203948554858863170327847361402499432475668583551362993090836034008730964391856950,
  454709422167743008635676148086307813004007115883888850887079258739890671051394318673036352942625010458483758232175146111924796470,
  483457973920596359768405609363895255471251618004483453413924281346616444802638786305472944568278652407999486507383174508683375490,
  511694177154667673585509745428854303249444739448960953730297467018095925163830474376016505148847824367909440727592660684740246240,
  539388108324357436226802597325560638174530629095712514920104670631484293283877859071398900160583225998147641069486260519664496140,
  566510418561397168404250195083462632310682605494345364489720845465916094758075626702533954125920972323657731282503166365633257290,
  593032364777572080683555755043758213173602137510373636686090915255732704221145851661019515269240785874522213011019804231265201300,
  618925840125468570386369286987862797385924304294141342487770721406086018176383909930628540332251669013674138804904250462631890060,
  644163403784967106798412350063301562303099204075871448445682020819475200108349659974318023655984852882104620704588758444283928270,
  668718310043916153952557207572774189024490620911704757911132879805887321387423840078995189353820617728233664489159908363168807830,
  692564536642171561344245769818242559454096529258855489584773463821636428827536265981507429827975844243991617569545691029177894490,
  715676812348967626225144148057624855297579970512471934187440071473578768823473683865244085227564497549144538170322240496071771880,
  738030643744400132851165731096497105229719705861680951140613353701216082701274318294586819348782140112338449410628997231219880200,
  759602341176647498702970441119621615853418684350547741412728775252892607259035339923050405943479093279262853364717358875246133150,
  780369043867433217603604455889317748020183381435905390928405157835267305138016557344210914286035579005269563586656527176078242730,
  800308744139140817228796143971327683216455575426421063567149592166752064762204278984884829428646968788103366555917755787299655850,
  819400310737931675538999624224478035135347219383611990098575071366035178192959504885892580576793259996904694203008424857245724780,
  837623511228187121494302816764692856979480843148001738960210620098708156979391173954462028085917927961879618511518868454259880110,
  854959033434601455462786969893569260642796030025999112696249225627765077789835548278158630493109135083512230945753522816622869420,
  871388505909296502873774764493042714723198637127069591437803548146382522212389513082033354044982198958802158394757869339680665360,
  886894517402420416056877433393786158831992645040230133205097627596624253702557463000373886164511638604827316839400064262506426580,
  901460635315852341319232697309686837840871379740481506579266044503032512421422416030910675268770019011116574733285642497339851140,
  915071423120898074205884466150421542087076418905500877117406339548581839103228621801795609385249388607808127683848401510878101080,
  927712456722308690964690472696546386905782485701430506544774963081908239425027528289080577092537165436326448171406065990896506450,
  939370339752755216931857379431615218355268147050047160510273332406647141996305816206598316206368368274974326371087580787484440700,
  950032717784437635756098948443863487809719004506856486739443639808976471619574067671662976639538285675663809249490258508860524990,
  959688291448742539300068025884734741187348366471208900598873429374824712667364004572365318290256747393610554465757207711500355040,
  968326828463264212173659366443651058392644248094522138585312120734830554054836236760201369737749051896975736599445374009260751910,
  975939174585136466452601034241879909198402954596115603400259297730511016293399907616947163237491836842527146594986504961171948670,
  982517263563014677447045831882548117944975813090718914004773757591083726209083659234339521796461500307339432564137872434633043220,
  988054126329623799480762772418451194550464600614148887207877401156905882861122202816237578453674945122910640402116574527942451790,
  992543900323762624571892297701601140876925069735707750068172215371281824872193800043545752907398795854489335455077211235324254940,
  995981842987209290650399084879356600517402559209160942880793907372368921374716136830153921743643029568037418140550279337291603930,
  998364375863181677724149439526719363387594139835729016891559450917295536501973290023375744023343408713131947863814840212658553370,
  999689503883230766827690105784365519281545462732461992001355963011212653147095345222748291390826804220597236492186315326135502960]

/-- `case 96` (Util/Gauss_Legendre_Nodes_and_Weights.hpp:23166-23618), `weights`. -/
def weights96 : List Nat := [
  796792065552012429438143496943568759931086922826873755369195157365345375874565346671237566400000000000000000000000000000000000,
  1853960788946921732335925350893910588208288376277177915061084638606303642379825918264698388400000000000000000000000000000000000,
  2910731817934946408410617989400725009747169337234322473761649533644271160621858721216895224000000000000000000000000000000000000,
  3964554338444686673733415767419659877691247922865890823183334874434591561681373322943686822000000000000000000000000000000000000,
  5014202742927517692470194969030898474074112473881134454568613165156013661208562658225150436000000000000000000000000000000000000,
  6058545504235961683316742031729087969578151209356065943121010710276266245194032541551013440000000000000000000000000000000000000,
  7096470791153865269144160812143391934772099304693550642846478795407710030510627294031145619000000000000000000000000000000000000,
  8126876925698759217382427707855937734244760320838153308616403531172739774410414996403192132000000000000000000000000000000000000,
  9148671230783386632584602665207928526448801971133239654684871743930202476145227722002878900000000000000000000000000000000000000,
  10160770535008415757587636953825368848984845861045912968179473930272702144689413424550252593000000000000000000000000000000000000,
  11162102099838498591213263828562068610863963422178036374985806583316694714911355521612653136000000000000000000000000000000000000,
  12151604671088319635181352736667252122370643850579111170261971031037458553018697327349888082200000000000000000000000000000000000,
  13128229566961572637063666902599108898775699313007704619026286980432407258551172456893284594100000000000000000000000000000000000,
  14090941772314860915861624724636639518392151037111471257165541379766734457182497842560271707400000000000000000000000000000000000,
  15038721026994938005876275222097552837384833970636292371157974400436343999413772282159898867950000000000000000000000000000000000,
  15970562902562291380616456791493051060991482709336847802201569756979775165892668720605108075970000000000000000000000000000000000,
  16885479864245172450477540606861926652599614120810620017034695660861483477518638364228320952144000000000000000000000000000000000,
  17782502316045260837614226486071016063899239907906754559096755642529271136320796165561169970592000000000000000000000000000000000,
  18660679627411467385156758622132219064144051709281858121654171168722145982471722727822198066003800000000000000000000000000000000,
  19519081140145022410085220281204686487858881013737001727456223038453181598062528276761189111620300000000000000000000000000000000,
  20356797154333324595245215417271614342068969553951808577572245195682657219099388124744844253212320000000000000000000000000000000,
  21172939892191298987673867191003700767616976373645352006200393256474640517582047294799473730979210000000000000000000000000000000,
  21966644438744349194756386801562236250168956413498128474033169836281729714385788271255045214810668000000000000000000000000000000,
  22737069658329374001347841977490286355700324600826538275766418868998827037141261998169729386381063200000000000000000000000000000,
  23483399085926219842235932667612580954765595182210206586366176111020168281480037218778890210109584750000000000000000000000000000,
  24204841792364691282267337872677038949832491575032473356018587570359557407242379077266526308345920010000000000000000000000000000,
  24900633222483610288382180868332736453678058612440441139164699019089648108808310830788855570602000967000000000000000000000000000,
  25570036005349361498797167943600086096340054694224466406829508946934682606845646369188248075352765280300000000000000000000000000,
  26212340735672413913457963964463343561605997311238191012749130797918748139407805539585522239405985888530000000000000000000000000,
  26826866725591762198056728714156645865322720814034198018175822837474166146837639546668786451344829263455000000000000000000000000,
  27412962726029242823421087489091270698572961074540704343554794968235361471449065426213315541190815262537600000000000000000000000,
  27970007616848334439818576589022507844891305886777679861327736846251480375887999048596283113926692217480300000000000000000000000,
  28497411065085385645599512945805604569697298351755795373692657497967307735018111766029887281399720018110769000000000000000000000,
  28994614150555236542678781279681573055015500917621046522545790277864842062716321568311373122809985999867772800000000000000000000,
  29461089958167905970436332182858449251622520413431177661029875122129927689603515160181331526340716173669911870000000000000000000,
  29896344136328385984388075794400060540161163343384189851908637924020627296309141612876664334956360401382904120000000000000000000,
  30299915420827593794088764206500914070317780217681163227328446837680873303902464836229000069874915373578221980340000000000000000,
  30671376123669149014228830356204276272423845482869727219790717719224137411971604622213009807964484047512868778453000000000000000,
  31010332586313837423249779970632636844393136382500485937908823897213256195390916587208543087299158421600891636064100000000000000,
  31316425596861355812784266715063128175710294606850042479469467478665865802699864596756814569027541704169710883004240000000000000,
  31589330770727168558020746169964160125034471189385473579963975747482145906171590983814840518395616024158762013311495400000000000,
  31828758894411006534753739885532253497890898885610560981398980424856341335258779265608758354682424181232606256822767680000000000,
  32034456231992663218138977470211162994503579182408931081112907931644323830637640174041372422870600484356992313317987471000000000,
  32206204794030250668667114557232518503917793388139459999942041476984579533182404921987589736620214547886972589256691056190000000,
  32343822568575928428774838828943270428100962899969549136648795666639800880547068761900047925424240749408586651758982485138000000,
  32447163714064269364012788448845858333373635300547049288494615679969887018993609768738424901797194700524471876874892523333240000,
  32516118713868835987205491447778354669003569133489991458775253033234991428039652663263280462111856595234476761293957550926670000,
  32550614492363166241961418297285731487308013457197148182797217306897783127330192333369408097309624575166960383653853613087137570,
  32550614492363166241961418297285731487308013457197148182797217306897783127330192333369408097309624575166960383653853613087137570,
  32516118713868835987205491447778354669003569133489991458775253033234991428039652663263280462111856595234476761293957550926670000,
  32447163714064269364012788448845858333373635300547049288494615679969887018993609768738424901797194700524471876874892523333240000,
  32343822568575928428774838828943270428100962899969549136648795666639800880547068761900047925424240749408586651758982485138000000,
  32206204794030250668667114557232518503917793388139459999942041476984579533182404921987589736620214547886972589256691056190000000,
  32034456231992663218138977470211162994503579182408931081112907931644323830637640174041372422870600484356992313317987471000000000,
  31828758894411006534753739885532253497890898885610560981398980424856341335258779265608758354682424181232606256822767680000000000,
  31589330770727168558020746169964160125034471189385473579963975747482145906171590983814840518395616024158762013311495400000000000,
  31316425596861355812784266715063128175710294606850042479469467478665865802699864596756814569027541704169710883004240000000000000,
  31010332586313837423249779970632636844393136382500485937908823897213256195390916587208543087299158421600891636064100000000000000,
  30671376123669149014228830356204276272423845482869727219790717719224137411971604622213009807964484047512868778453000000000000000,
  30299915420827593794088764206500914070317780217681163227328446837680873303902464836229000069874915373578221980340000000000000000,
  29896344136328385984388075794400060540161163343384189851908637924020627296309141612876664334956360401382904120000000000000000000,
  29461089958167905970436332182858449251622520413431177661029875122129927689603515160181331526340716173669911870000000000000000000,
  28994614150555236542678781279681573055015500917621046522545790277864842062716321568311373122809985999867772800000000000000000000,
  28497411065085385645599512945805604569697298351755795373692657497967307735018111766029887281399720018110769000000000000000000000,
  27970007616848334439818576589022507844891305886777679861327736846251480375887999048596283113926692217480300000000000000000000000,
  27412962726029242823421087489091270698572961074540704343554794968235361471449065426213315541190815262537600000000000000000000000,
  26826866725591762198056728714156645865322720814034198018175822837474166146837639546668786451344829263455000000000000000000000000,
  26212340735672413913457963964463343561605997311238191012749130797918748139407805539585522239405985888530000000000000000000000000,
  25570036005349361498797167943600086096340054694224466406829508946934682606845646369188248075352765280300000000000000000000000000,
  24900633222483610288382180868332736453678058612440441139164699019089648108808310830788855570602000967000000000000000000000000000,
  24204841792364691282267337872677038949832491575032473356018587570359557407242379077266526308345920010000000000000000000000000000,
  23483399085926219842235932667612580954765595182210206586366176111020168281480037218778890210109584750000000000000000000000000000,
  22737069658329374001347841977490286355700324600826538275766418868998827037141261998169729386381063200000000000000000000000000000,
  21966644438744349194756386801562236250168956413498128474033169836281729714385788271255045214810668000000000000000000000000000000,
  21172939892191298987673867191003700767616976373645352006200393256474640517582047294799473730979210000000000000000000000000000000,
  20356797154333324595245215417271614342068969553951808577572245195682657219099388124744844253212320000000000000000000000000000000,
  19519081140145022410085220281204686487858881013737001727456223038453181598062528276761189111620300000000000000000000000000000000,
  18660679627411467385156758622132219064144051709281858121654171168722145982471722727822198066003800000000000000000000000000000000,
  17782502316045260837614226486071016063899239907906754559096755642529271136320796165561169970592000000000000000000000000000000000,
  16885479864245172450477540606861926652599614120810620017034695660861483477518638364228320952144000000000000000000000000000000000,
  15970562902562291380616456791493051060991482709336847802201569756979775165892668720605108075970000000000000000000000000000000000,
  15038721026994938005876275222097552837384833970636292371157974400436343999413772282159898867950000000000000000000000000000000000,
  14090941772314860915861624724636639518392151037111471257165541379766734457182497842560271707400000000000000000000000000000000000,
  13128229566961572637063666902599108898775699313007704619026286980432407258551172456893284594100000000000000000000000000000000000,
  12151604671088319635181352736667252122370643850579111170261971031037458553018697327349888082200000000000000000000000000000000000,
  11162102099838498591213263828562068610863963422178036374985806583316694714911355521612653136000000000000000000000000000000000000,
  10160770535008415757587636953825368848984845861045912968179473930272702144689413424550252593000000000000000000000000000000000000,
  9148671230783386632584602665207928526448801971133239654684871743930202476145227722002878900000000000000000000000000000000000000,
  8126876925698759217382427707855937734244760320838153308616403531172739774410414996403192132000000000000000000000000000000000000,
  7096470791153865269144160812143391934772099304693550642846478795407710030510627294031145619000000000000000000000000000000000000,
  6058545504235961683316742031729087969578151209356065943121010710276266245194032541551013440000000000000000000000000000000000000,
  5014202742927517692470194969030898474074112473881134454568613165156013661208562658225150436000000000000000000000000000000000000,
  3964554338444686673733415767419659877691247922865890823183334874434591561681373322943686822000000000000000000000000000000000000,
  2910731817934946408410617989400725009747169337234322473761649533644271160621858721216895224000000000000000000000000000000000000,
  1853960788946921732335925350893910588208288376277177915061084638606303642379825918264698388400000000000000000000000000000000000,
  796792065552012429438143496943568759931086922826873755369195157365345375874565346671237566400000000000000000000000000000000000]

/-- `case 97` (Util/Gauss_Legendre_Nodes_and_Weights.hpp:23620-24074), `nodes`. -/
def nodes97 : List Int := [
  -999695839995246724911967888543525375811192524852888769633734237200577273229805638555294230479145818287988511263296400153896535850,
  -998397745860566436733244243116458367064560140420794061243265636618649615934279863046771622297377562788997520798816583345203081520,
  -996063789477488413024311805476864021704936793172046161385356766077811381253400753190095504606500896375768528752238133663632529460,
  -992695874778551609258150292615755375704630700215522603031552171753863428828011731253800485027686991147002819459058315627778519760,
  -988297434501838787317893544167560492623267262012596278970434571672291014130133597723598927431674668635291228361821030909794827140,
  -982873019613528351035923788570189794543087349506517103329553426646164081606369643115851349018048730303375670642719684595666065140,
  -976428256308619764924244830883045963832042867057827174804924778750765622197408755697804195006119875098306645404230600764313186100,
  -968969833034950922100110122032254599876716832877701311978231829392874486332977807765047428702844424794136463675182387653442190850,
  -960505491652787246157486450449083606115726514251227073710048299784171252815942711268353168504215576293654259431055627084341391580,
  -951044018766639195210907419168001353062000032213508227143051604443157572366027570251377321514246433859055775951335542599995646670,
  -940595236358027984371684870846900069928592775372540587898290680350948158158023809361700806989831489896824607969088008173279367960,
  -929169991481619140822260180012453443566425578738645079369034149210429607871982655392962732610129417483035987725116459726947283630,
  -916780144953188888049795999482303912739355736058778693610444605125049020851781962035065815168737306023899762792515670613059118350,
  -903438559010121616414912334192734372464491655017174150188969659537765598786682169796343690646975794966920169449937568390116777410,
  -889159083944300362039028599158112839358544428882262663058306355481422536091331252276892330355522100490744529108757298568935759100,
  -873956543715414215359203312388027335331203249978449263372235035157281375430476481256904579885263453079650175322486326773506615980,
  -857846720556790301260558105700068093719671730014923442522610275027077284770223478972570999981990689638318801135294796155965171460,
  -840846338588286767457514933820386752859836017313906708842060329327819692927577221576057265524915450845569117729297461195944727720,
  -822973046452484441750419840027657701437432055393491895427896178668872596201662138141189033533146666499331129598261174702040598120,
  -804245398991770565478887960139870890551767394106937078895778771756597085092818438464793270519604141100619224923211535599673837360,
  -784682837985085728830414310449783609929658481485677151437043081923424650661617581065472133478557518897705657840957617722797201270,
  -764305671964182056902005659311732623700666373595803583785785677465893466392780848382417144643334726073376730958840606903576012280,
  -743135055130253938043062157536985240899541761099823767776292525503503195410338621237618991989674039662723669137687692323387417660,
  -721192965392770524946237090905544813400920926729921004404012717859473267664594241240251299262126092731582133117181270536615054690,
  -698502181553271116636779300611390854424510513152205638996253697524019918254848135751611221190622846972974629943945800897260480480,
  -675086259657784965824565276043240850115525530190918509373296128126524999034610188956158678088700492875567693497447237984358714100,
  -650969508542408255109624198700846224445681840957016010945438007482570549171877432374327629673805085475900892545342849976332705680,
  -626176964597413854512988540320122727615147984676477534901468911904960391938163343978216075141915036549609571052433553969238681560,
  -600734365776084208376919266344799599299384963266109413710051489724927398383160960833457478506037183243522238053818339001554652660,
  -574668124875244104327377514936213186193996405542664800381548323931049536245348154078299196879570611722660284003464220567827141060,
  -548005302115227734655985852214177297820924129161164054887536333407684301350903670489606025225296667697056845236375881464786147250,
  -520773577047742836547220111589787726137864533721980232005576864666689642969672088584282900811244163152637101962876889147570821860,
  -493001219820793197245320592043697216551987356880315448993854541503905400622675239931833671488555961949697053297592610676580880060,
  -464717061830488813407275677399384001806951137851317030843248173753450902056704048276548113156928834374661415537871077903724518720,
  -435950465790209876438385537127269005718960069660890057590786117507245306206485037885618866449218774924739837296769794825459120030,
  -406731295248195902884205980773356372064962831094281463654070822728335491023421062820953652566010566480792557548049964526765109500,
  -377089883585204144300973019465418252757471625829204612201008008983436129521772445104829402140359879149355572644924056129743926810,
  -347057002524421321481913370351534699489484535421236811751067215761349283477078870312956722043498833779057740277195829317769020920,
  -316663830186319188061197580532581021443754951430887061311493059151011735604321802137249397782003988657155419136040053475474402120,
  -285941918721616923173769417728987280460575816863239638796201809506035125548727854755923073444770322011984779325001066141930852440,
  -254923161555951399025067249830567318049582926196165817693171088434950803787227894544727553858021400055632433579099068709778406200,
  -223639760280259517555185298303289074859557250369009993628643994792606658037952367015891868745956235763267200439901617159516216770,
  -192124191221244646235720057751940384944653449612336774358148012551623343763650148239427711184959323616597948523844667408062838200,
  -160409171726631327382780433059152053317921224654898101521737866467150799248276037636632410522471737317661401294917922612198770800,
  -128527626200208545469683297152297233604962210369004994452328356819204861574041246616435403968733780746599551733572054363764259110,
  -96512651921921606901656876218620013672322558032316779496310403053400276684145576946034123179713326445818260434472390868548564336,
  -64397484688495848021884642857901540228046200164024950100007264548292609697780076956072062574400832349912032187807724960840469502,
  -32215464310261708911051988251711496543305571767958348742105383956154020784817261221293146628233521105777754233002125205731024370,
  0,
  32215464310261708911051988251711496543305571767958348742105383956154020784817261221293146628233521105777754233002125205731024370,
  64397484688495848021884642857901540228046200164024950100007264548292609697780076956072062574400832349912032187807724960840469502,
  96512651921921606901656876218620013672322558032316779496310403053400276684145576946034123179713326445818260434472390868548564336,
  128527626200208545469683297152297233604962210369004994452328356819204861574041246616435403968733780746599551733572054363764259110,
  160409171726631327382780433059152053317921224654898101521737866467150799248276037636632410522471737317661401294917922612198770800,
  192124191221244646235720057751940384944653449612336774358148012551623343763650148239427711184959323616597948523844667408062838200,
  223639760280259517555185298303289074859557250369009993628643994792606658037952367015891868745956235763267200439901617159516216770,
  254923161555951399025067249830567318049582926196165817693171088434950803787227894544727553858021400055632433579099068709778406200,
  285941918721616923173769417728987280460575816863239638796201809506035125548727854755923073444770322011984779325001066141930852440,
  316663830186319188061197580532581021443754951430887061311493059151011735604321802137249397782003988657155419136040053475474402120,
  347057002524421321481913370351534699489484535421236811751067215761349283477078870312956722043498833779057740277195829317769020920,
  377089883585204144300973019465418252757471625829204612201008008983436129521772445104829402140359879149355572644924056129743926810,
  406731295248195902884205980773356372064962831094281463654070822728335491023421062820953652566010566480792557548049964526765109500,
  435950465790209876438385537127269005718960069660890057590786117507245306206485037885618866449218774924739837296769794825459120030,
  464717061830488813407275677399384001806951137851317030843248173753450902056704048276548113156928834374661415537871077903724518720,
  493001219820793197245320592043697216551987356880315448993854541503905400622675239931833671488555961949697053297592610676580880060,
  520773577047742836547220111589787726137864533721980232005576864666689642969672088584282900811244163152637101962876889147570821860,
  548005302115227734655985852214177297820924129161164054887536333407684301350903670489606025225296667697056845236375881464786147250,
  574668124875244104327377514936213186193996405542664800381548323931049536245348154078299196879570611722660284003464220567827141060,
  600734365776084208376919266344799599299384963266109413710051489724927398383160960833457478506037183243522238053818339001554652660,
  626176964597413854512988540320122727615147984676477534901468911904960391938163343978216075141915036549609571052433553969238681560,
  650969508542408255109624198700846224445681840957016010945438007482570549171877432374327629673805085475900892545342849976332705680,
  675086259657784965824565276043240850115525530190918509373296128126524999034610188956158678088700492875567693497447237984358714100,
  698502181553271116636779300611390854424510513152205638996253697524019918254848135751611221190622846972974629943945800897260480480,
  721192965392770524946237090905544813400920926729921004404012717859473267664594241240251299262126092731582133117181270536615054690,
  743135055130253938043062157536985240899541761099823767776292525503503195410338621237618991989674039662723669137687692323387417660,
  764305671964182056902005659311732623700666373595803583785785677465893466392780848382417144643334726073376730958840606903576012280,
  784682837985085728830414310449783609929658481485677151437043081923424650661617581065472133478557518897705657840957617722797201270,
  804245398991770565478887960139870890551767394106937078895778771756597085092818438464793270519604141100619224923211535599673837360,
  822973046452484441750419840027657701437432055393491895427896178668872596201662138141189033533146666499331129598261174702040598120,
  840846338588286767457514933820386752859836017313906708842060329327819692927577221576057265524915450845569117729297461195944727720,
  857846720556790301260558105700068093719671730014923442522610275027077284770223478972570999981990689638318801135294796155965171460,
  873956543715414215359203312388027335331203249978449263372235035157281375430476481256904579885263453079650175322486326773506615980,
  889159083944300362039028599158112839358544428882262663058306355481422536091331252276892330355522100490744529108757298568935759100,
  903438559010121616414912334192734372464491655017174150188969659537765598786682169796343690646975794966920169449937568390116777410,
  916780144953188888049795999482303912739355736058778693610444605125049020851781962035065815168737306023899762792515670613059118350,
  929169991481619140822260180012453443566425578738645079369034149210429607871982655392962732610129417483035987725116459726947283630,
  940595236358027984371684870846900069928592775372540587898290680350948158158023809361700806989831489896824607969088008173279367960,
  951044018766639195210907419168001353062000032213508227143051604443157572366027570251377321514246433859055775951335542599995646670,
  960505491652787246157486450449083606115726514251227073710048299784171252815942711268353168504215576293654259431055627084341391580,
  968969833034950922100110122032254599876716832877701311978231829392874486332977807765047428702844424794136463675182387653442190850,
  976428256308619764924244830883045963832042867057827174804924778750765622197408755697804195006119875098306645404230600764313186100,
  982873019613528351035923788570189794543087349506517103329553426646164081606369643115851349018048730303375670642719684595666065140,
  988297434501838787317893544167560492623267262012596278970434571672291014130133597723598927431674668635291228361821030909794827140,
  992695874778551609258150292615755375704630700215522603031552171753863428828011731253800485027686991147002819459058315627778519760,
  996063789477488413024311805476864021704936793172046161385356766077811381253400753190095504606500896375768528752238133663632529460,
  998397745860566436733244243116458367064560140420794061243265636618649615934279863046771622297377562788997520798816583345203081520,
  999695839995246724911967888543525375811192524852888769633734237200577273229805638555294230479145818287988511263296400153896535850]

/-- `case 97` (Util/Gauss_Legendre_Nodes_and_Weights.hpp:23620-24074), `weights`. -/
def weights97 : List Nat := [
  780533221942561245723572332866176518622107896005783394455922160679824580128169476384293010100000000000000000000000000000000000,
  1816146398210039609507695079384207536512720865672989982394369617611393115563061720497089842000000000000000000000000000000000000,
  2851409243213055771419508055744576162377358766471489635839950836445262147900858471879470989000000000000000000000000000000000000,
  3883845329489294421732652349233977508158784300359470749047803528535971661215839177354779305000000000000000000000000000000000000,
  4912276262166028130835282242192428468944649431631703270839000968136508069596220875480795510000000000000000000000000000000000000,
  5935615630788222954183296953337406717166723867244888822862086859785176463831765994144857810000000000000000000000000000000000000,
  6952796096469405526465130998993375722898044996639490806400531475459257162553998887242892090000000000000000000000000000000000000,
  7962759997865495595598658863744105183478209671417196181809890902547814990537932434367075543000000000000000000000000000000000000,
  8964458176697999432565184412604373387325599026142556137932308905866825553647652374374800803000000000000000000000000000000000000,
  9956850427084044948237853582076024760150815692631796321161238090422447872856220732873391503000000000000000000000000000000000000,
  10938906359195948953967160200485494337167583375770064814177780875019457785984966607476441958000000000000000000000000000000000000,
  11909606385330756832736230891082916561019564906020816332562691621639532052814359915622055480000000000000000000000000000000000000,
  12867942742493386675711351964317612758339922230270637490391161443687225749620628237890258264400000000000000000000000000000000000,
  13812920521853043271149004758434131824179765684067777769102504250518302408539057769433491590900000000000000000000000000000000000,
  14743558693236950176359824619634294003007680006399004918622701726237001476681876111565527355800000000000000000000000000000000000,
  15658891119156920520207006910260973086773197754538331880201877044905123014264788809348228516790000000000000000000000000000000000,
  16557967555342456629028072610614097695232306205349287380213460724152623968954935570048442458440000000000000000000000000000000000,
  17439854635807804639405491024978333941952949176045561602344420472021999556566947998193012149425000000000000000000000000000000000,
  18303636840964140822291599039698315231017272985661705858474739308284854272693792204672869173222000000000000000000000000000000000,
  19148417447528129335256690348552788097385026872064147324316935504500860443968022885906848688050500000000000000000000000000000000,
  19973319459108046888189165973111324896272535622899439562016178062713722505043468213074208893918800000000000000000000000000000000,
  20777486516426568497989775227794594702108588585174816375862030505662560875738780717642349264667740000000000000000000000000000000,
  21560083786191718278434710981693426083426895753510691224980484283873278084609187215405367504485123000000000000000000000000000000,
  22320298827667132378623154626353982933503589099979287986951296400660047154639701632545430629715200000000000000000000000000000000,
  23057342436025995796396165996893943256087672046915730474153926745941789704584887988405261058889694500000000000000000000000000000,
  23770449461603068821041847953627038494701404507211803567871044652682246331071301894012910756518161410000000000000000000000000000,
  24458879604187847290599599066024018876067446921167695601518433372714991786135739708903019175089181718000000000000000000000000000,
  25121918181530046735652127413228256509875410135383313282026229691830633830347898019613404418923471154600000000000000000000000000,
  25758876871256784895352256585115017634700010122175715129911562438400823924813244523081071566748535125840000000000000000000000000,
  26369094425429349757078529710983444136017355952128761408180458490307704785598755371671479930107781625030000000000000000000000000,
  26951937356996440673633579868513924414845186823545757175340440973182890460477775995793427577036277853469000000000000000000000000,
  27506800597430342560096200026850108645967791859799942075442139185160235591616340817267366822464601469210100000000000000000000000,
  28033108124862677526805309563267814726477642816348803964005272019403577150698218567202164348188798374090590000000000000000000000,
  28530313562067187518238001641691547820423125830411651430956639657083584529418975247429305787679948412826582000000000000000000000,
  28997900743668431872052344320349066167914113489779994734920475148856831869985380840827018603177178633464327970000000000000000000,
  29435384251987320864242889279974517660655563907431971415567342207390289363057156880391009503796955380347948574000000000000000000,
  29842309920967029034578191333383991452630647667931613939390993836639605699611041084624635204779892470481464137500000000000000000,
  30218255307656014534520751248023907928810412784163191894599936272166635566906262426367599516859419457865818402060000000000000000,
  30562830130758583861350991769385928161917156728610244503942778043678684478597674501286791589571622736454569789745000000000000000,
  30875676675797653824326456949727271198983329980642751967941645953195801856239153447817248908254500945088422439975870000000000000,
  31156470166469041457751096653945200337540939993567454564073568780200189974900112063282735242703592522536265692198691000000000000,
  31404919101801723624577980416919419646024567943419180092934641924858276186145698562770618182888942032215311041958630800000000000,
  31620765558774016042949053500338411127114850118919917257695026430635594146797822099658571278921821426846679749196430488000000000,
  31803785460071490444953693993741217041362080366699557783960037169349216479304076686677590773274090203508969641446637463600000000,
  31953788806708641945283819529800083187755956001124445810834093223660323719963595829385840181195668959380838454907889551380000000,
  32070619875272799349279527313301872116939327714776323032909688907883490858548682242473205530679006438802635286736228330411900000,
  32154157379585501535779989748534334250211324471800806061344031928264148603586955253828484738554512789823050834296962472328930000,
  32204314596613505334757482425470098922027673037574826052950041017226728507635560000691497744959121741975736196720356873822405000,
  32221039456498706326168079287441256335854232012999221909136372719837267252010911826227526462257273462390454767772362306841499258,
  32204314596613505334757482425470098922027673037574826052950041017226728507635560000691497744959121741975736196720356873822405000,
  32154157379585501535779989748534334250211324471800806061344031928264148603586955253828484738554512789823050834296962472328930000,
  32070619875272799349279527313301872116939327714776323032909688907883490858548682242473205530679006438802635286736228330411900000,
  31953788806708641945283819529800083187755956001124445810834093223660323719963595829385840181195668959380838454907889551380000000,
  31803785460071490444953693993741217041362080366699557783960037169349216479304076686677590773274090203508969641446637463600000000,
  31620765558774016042949053500338411127114850118919917257695026430635594146797822099658571278921821426846679749196430488000000000,
  31404919101801723624577980416919419646024567943419180092934641924858276186145698562770618182888942032215311041958630800000000000,
  31156470166469041457751096653945200337540939993567454564073568780200189974900112063282735242703592522536265692198691000000000000,
  30875676675797653824326456949727271198983329980642751967941645953195801856239153447817248908254500945088422439975870000000000000,
  30562830130758583861350991769385928161917156728610244503942778043678684478597674501286791589571622736454569789745000000000000000,
  30218255307656014534520751248023907928810412784163191894599936272166635566906262426367599516859419457865818402060000000000000000,
  29842309920967029034578191333383991452630647667931613939390993836639605699611041084624635204779892470481464137500000000000000000,
  29435384251987320864242889279974517660655563907431971415567342207390289363057156880391009503796955380347948574000000000000000000,
  28997900743668431872052344320349066167914113489779994734920475148856831869985380840827018603177178633464327970000000000000000000,
  28530313562067187518238001641691547820423125830411651430956639657083584529418975247429305787679948412826582000000000000000000000,
  28033108124862677526805309563267814726477642816348803964005272019403577150698218567202164348188798374090590000000000000000000000,
  27506800597430342560096200026850108645967791859799942075442139185160235591616340817267366822464601469210100000000000000000000000,
  26951937356996440673633579868513924414845186823545757175340440973182890460477775995793427577036277853469000000000000000000000000,
  26369094425429349757078529710983444136017355952128761408180458490307704785598755371671479930107781625030000000000000000000000000,
  25758876871256784895352256585115017634700010122175715129911562438400823924813244523081071566748535125840000000000000000000000000,
  25121918181530046735652127413228256509875410135383313282026229691830633830347898019613404418923471154600000000000000000000000000,
  24458879604187847290599599066024018876067446921167695601518433372714991786135739708903019175089181718000000000000000000000000000,
  23770449461603068821041847953627038494701404507211803567871044652682246331071301894012910756518161410000000000000000000000000000,
  23057342436025995796396165996893943256087672046915730474153926745941789704584887988405261058889694500000000000000000000000000000,
  22320298827667132378623154626353982933503589099979287986951296400660047154639701632545430629715200000000000000000000000000000000,
  21560083786191718278434710981693426083426895753510691224980484283873278084609187215405367504485123000000000000000000000000000000,
  20777486516426568497989775227794594702108588585174816375862030505662560875738780717642349264667740000000000000000000000000000000,
  19973319459108046888189165973111324896272535622899439562016178062713722505043468213074208893918800000000000000000000000000000000,
  19148417447528129335256690348552788097385026872064147324316935504500860443968022885906848688050500000000000000000000000000000000,
  18303636840964140822291599039698315231017272985661705858474739308284854272693792204672869173222000000000000000000000000000000000,
  17439854635807804639405491024978333941952949176045561602344420472021999556566947998193012149425000000000000000000000000000000000,
  16557967555342456629028072610614097695232306205349287380213460724152623968954935570048442458440000000000000000000000000000000000,
  15658891119156920520207006910260973086773197754538331880201877044905123014264788809348228516790000000000000000000000000000000000,
  14743558693236950176359824619634294003007680006399004918622701726237001476681876111565527355800000000000000000000000000000000000,
  13812920521853043271149004758434131824179765684067777769102504250518302408539057769433491590900000000000000000000000000000000000,
  12867942742493386675711351964317612758339922230270637490391161443687225749620628237890258264400000000000000000000000000000000000,
  11909606385330756832736230891082916561019564906020816332562691621639532052814359915622055480000000000000000000000000000000000000,
  10938906359195948953967160200485494337167583375770064814177780875019457785984966607476441958000000000000000000000000000000000000,
  9956850427084044948237853582076024760150815692631796321161238090422447872856220732873391503000000000000000000000000000000000000,
  8964458176697999432565184412604373387325599026142556137932308905866825553647652374374800803000000000000000000000000000000000000,
  7962759997865495595598658863744105183478209671417196181809890902547814990537932434367075543000000000000000000000000000000000000,
  6952796096469405526465130998993375722898044996639490806400531475459257162553998887242892090000000000000000000000000000000000000,
  5935615630788222954183296953337406717166723867244888822862086859785176463831765994144857810000000000000000000000000000000000000,
  4912276262166028130835282242192428468944649431631703270839000968136508069596220875480795510000000000000000000000000000000000000,
  3883845329489294421732652349233977508158784300359470749047803528535971661215839177354779305000000000000000000000000000000000000,
  2851409243213055771419508055744576162377358766471489635839950836445262147900858471879470989000000000000000000000000000000000000,
  1816146398210039609507695079384207536512720865672989982394369617611393115563061720497089842000000000000000000000000000000000000,
  780533221942561245723572332866176518622107896005783394455922160679824580128169476384293010100000000000000000000000000000000000]

/-- `case 98` (Util/Gauss_Legendre_Nodes_and_Weights.hpp:24076-24534), `nodes`. -/
def nodes98 : List Int := [
  -999701984125490903637294903699706698825676784610738648973188928234104591302188866292707066715090937375360931597615642214733706770,
  -998430105047230453778693200770121165749238679985637868951382991936464789325746242227453398682569768168053495623873282102836452950,
  -996143254996859296062979709111805554203531781692818620315293704503500098118560636100557177661960118335845094795420714662522660220,
  -992843251536906730131880047397721659511641185333128291032814767436560378509081711440889182594606924291540010044274416468444873690,
  -988533388989158168372172990935676966211626408179278800698804308966166971717711191619394268120547328152301105347868670594260424570,
  -983218036293722991285337759264178612825770690314972320040682614904924291003860372856307034526773822879508389333196699301377381240,
  -976902595063886082499069431875122190687578326086182360663787170231276127709770242081792598705432905690705199524790471897018450290,
  -969593487100794472319864017318487637329609603245505799443066380946127167126648762803807102990892971626118915338911670506887141530,
  -961298146002891057710417600091940500190714386886636804215774290987788129140268398896721603248973345605613288418064854225855747240,
  -952025008986401501308772191988785114081292397890323884675410645706319420166331321913680737308760261914865942696833297473261239060,
  -941783508062711821098796246330444590047470643352623648084221330053766194544690941278389091289374341482420076347073985767291189100,
  -930584060339307042124495170042601405566973168248991396237551300788394134056872676883204193382453981958479657263727536978738333790,
  -918438057373568117197213650489391816781848365287489136935977432869369166074933517123827529053991111966512468428492932419441138130,
  -905357853559839135953333026220753117895395580294922073795941802724520740280608686186078170706539040803650141829280893457620910940,
  -891356753548891066431956996858751273237690167048383563275880834723060692187213520632152536698632729196864806016894269871103116520,
  -876448998706844105112915085046742391678118361255516751382662428830775946442425727397107829332389296533479920253568945163803531890,
  -860649752624551753159007234412265123493182777321351760105163977246217614249767506742146768302983633345536725589345192536228324960,
  -843975085690770467285956239472304867206402468364355598839334468205452778149589957148268449836440584088962086727032225267771387020,
  -826441958744047855107785282963378079855325799225461330180513505991947339948408360804846625620303939533070704268784315398578284070,
  -808068205819534351294907251735630275481729292351433805488756416180596788599122250603058983929576761008467843108443270148889857720,
  -788872516008022266700966733336040199286314430150783778466210043686218027862323775237235568490733225456566478977648906902111328640,
  -768874414445517797116596242056560065791105414921354637492076549402053740693487573421763041823056833987822814704215988593982764000,
  -748094242452592450640566649209188498927908406998352340243402669439872053940008152418937154214077431294488571402325796720875179010,
  -726553136843658480912569837242185078841461216120635204927103575107812082125534019973761028307860083305423791203373359270267915840,
  -704273008427177423656976748521318030528705945340488293678676076631872792959848275715985393595096609235815102888974854562365643070,
  -681276519718646320796038782746286817763451676655437321217925969513656458607744079523883684688821967332630587020558214489311587390,
  -657587061889014905160305196086080612021245660178114948839266626859129399505625477575040135605285692262013417873563924406249994780,
  -633228730971969861881956414614178268259499575813721331172700394645480508551765701616002708681335809715094915442776476048727542100,
  -608226303354279533514416933120736286571522576444287933303592794996519087339181677645498116692533153316998757363400585087694877970,
  -582605210574123959653296159508791403228997587364459963156736427695563359227441687865714690155814087866062656971210292167633425170,
  -556391513453040586457397532838283759096584540195504431024353446278723225246218082638591051074928638583777652463700532077764751400,
  -529611875587794876248435658463843494434719182150991514317439434921645307486048928573141994919183838078512902031454329456196631080,
  -502293536229136859823462424437551884560780465067272195119920813931984864391685963255023184611304462714907178126143975786710117090,
  -474464282575028844127022553466389065178090384068533300228815402289918894492527642789540167776462430224431165654800031120300158600,
  -446152421506525448597056953273226189617475606013645839033473357923576480453481914141173812530268692765733952122618190589268559770,
  -417386750795054334181470372049974237341031611083531067060934988118402323457170583604222163416247325827342849243968548546878301430,
  -388196529810383863720304258601454383402834861647974540439666212533274671380337169225047646306706767931165017643992345532818333290,
  -358611449759071965248416706709047801533514768549076150641104005017275150295803150210796233495298369068074324097907878188496569810,
  -328661603483668158817608889932987324014075292021351094450762572824083319498182110530420444233486283795072335196520596384063976660,
  -298377454853387577158828103964937088323076296876494332265512127734918712555580101881959927613132826136534292352217722858106659880,
  -267789807777391413732746928877745895212939100556565912341421756019799891941472884462109896951947250214472156562993639351701500930,
  -236929774872192150992227780227777657334481201867947245228260856105115759450395972748821760138013198829694702577132400331999052730,
  -205828745815053770307664547996454120924784011052122826168856263615029125559900944622047035555604421847185453113076651720182077930,
  -174518355415576567874967402495222369632185287939365438067681721318925684958188930218381301755579572242264525428675505362093810350,
  -143030451437942875166029985625521584600296619398096477841554902454649648936409222831814594412893557705073833547143562909155403460,
  -111397062206553617998208088256728671871195075963248823037152539064688543322584785174188463713472315790724010689664144732909083990,
  -79650364028005988212933627785257437986072375832257598005831172970118276366688677503833241444398696122636985002213289547665888080,
  -47822648462549322962767688127250424990392226971436827604076357675577257364742381745046648119442908766753854131606879470985435825,
  -15946289478309399287563567415446772238143406533048467881087401391612240099898621411875544176096846142217248674068373618043228697,
  15946289478309399287563567415446772238143406533048467881087401391612240099898621411875544176096846142217248674068373618043228697,
  47822648462549322962767688127250424990392226971436827604076357675577257364742381745046648119442908766753854131606879470985435825,
  79650364028005988212933627785257437986072375832257598005831172970118276366688677503833241444398696122636985002213289547665888080,
  111397062206553617998208088256728671871195075963248823037152539064688543322584785174188463713472315790724010689664144732909083990,
  143030451437942875166029985625521584600296619398096477841554902454649648936409222831814594412893557705073833547143562909155403460,
  174518355415576567874967402495222369632185287939365438067681721318925684958188930218381301755579572242264525428675505362093810350,
  205828745815053770307664547996454120924784011052122826168856263615029125559900944622047035555604421847185453113076651720182077930,
  236929774872192150992227780227777657334481201867947245228260856105115759450395972748821760138013198829694702577132400331999052730,
  267789807777391413732746928877745895212939100556565912341421756019799891941472884462109896951947250214472156562993639351701500930,
  298377454853387577158828103964937088323076296876494332265512127734918712555580101881959927613132826136534292352217722858106659880,
  328661603483668158817608889932987324014075292021351094450762572824083319498182110530420444233486283795072335196520596384063976660,
  358611449759071965248416706709047801533514768549076150641104005017275150295803150210796233495298369068074324097907878188496569810,
  388196529810383863720304258601454383402834861647974540439666212533274671380337169225047646306706767931165017643992345532818333290,
  417386750795054334181470372049974237341031611083531067060934988118402323457170583604222163416247325827342849243968548546878301430,
  446152421506525448597056953273226189617475606013645839033473357923576480453481914141173812530268692765733952122618190589268559770,
  474464282575028844127022553466389065178090384068533300228815402289918894492527642789540167776462430224431165654800031120300158600,
  502293536229136859823462424437551884560780465067272195119920813931984864391685963255023184611304462714907178126143975786710117090,
  529611875587794876248435658463843494434719182150991514317439434921645307486048928573141994919183838078512902031454329456196631080,
  556391513453040586457397532838283759096584540195504431024353446278723225246218082638591051074928638583777652463700532077764751400,
  582605210574123959653296159508791403228997587364459963156736427695563359227441687865714690155814087866062656971210292167633425170,
  608226303354279533514416933120736286571522576444287933303592794996519087339181677645498116692533153316998757363400585087694877970,
  633228730971969861881956414614178268259499575813721331172700394645480508551765701616002708681335809715094915442776476048727542100,
  657587061889014905160305196086080612021245660178114948839266626859129399505625477575040135605285692262013417873563924406249994780,
  681276519718646320796038782746286817763451676655437321217925969513656458607744079523883684688821967332630587020558214489311587390,
  704273008427177423656976748521318030528705945340488293678676076631872792959848275715985393595096609235815102888974854562365643070,
  726553136843658480912569837242185078841461216120635204927103575107812082125534019973761028307860083305423791203373359270267915840,
  748094242452592450640566649209188498927908406998352340243402669439872053940008152418937154214077431294488571402325796720875179010,
  768874414445517797116596242056560065791105414921354637492076549402053740693487573421763041823056833987822814704215988593982764000,
  788872516008022266700966733336040199286314430150783778466210043686218027862323775237235568490733225456566478977648906902111328640,
  808068205819534351294907251735630275481729292351433805488756416180596788599122250603058983929576761008467843108443270148889857720,
  826441958744047855107785282963378079855325799225461330180513505991947339948408360804846625620303939533070704268784315398578284070,
  843975085690770467285956239472304867206402468364355598839334468205452778149589957148268449836440584088962086727032225267771387020,
  860649752624551753159007234412265123493182777321351760105163977246217614249767506742146768302983633345536725589345192536228324960,
  876448998706844105112915085046742391678118361255516751382662428830775946442425727397107829332389296533479920253568945163803531890,
  891356753548891066431956996858751273237690167048383563275880834723060692187213520632152536698632729196864806016894269871103116520,
  905357853559839135953333026220753117895395580294922073795941802724520740280608686186078170706539040803650141829280893457620910940,
  918438057373568117197213650489391816781848365287489136935977432869369166074933517123827529053991111966512468428492932419441138130,
  930584060339307042124495170042601405566973168248991396237551300788394134056872676883204193382453981958479657263727536978738333790,
  941783508062711821098796246330444590047470643352623648084221330053766194544690941278389091289374341482420076347073985767291189100,
  952025008986401501308772191988785114081292397890323884675410645706319420166331321913680737308760261914865942696833297473261239060,
  961298146002891057710417600091940500190714386886636804215774290987788129140268398896721603248973345605613288418064854225855747240,
  969593487100794472319864017318487637329609603245505799443066380946127167126648762803807102990892971626118915338911670506887141530,
  976902595063886082499069431875122190687578326086182360663787170231276127709770242081792598705432905690705199524790471897018450290,
  983218036293722991285337759264178612825770690314972320040682614904924291003860372856307034526773822879508389333196699301377381240,
  988533388989158168372172990935676966211626408179278800698804308966166971717711191619394268120547328152301105347868670594260424570,
  992843251536906730131880047397721659511641185333128291032814767436560378509081711440889182594606924291540010044274416468444873690,
  996143254996859296062979709111805554203531781692818620315293704503500098118560636100557177661960118335845094795420714662522660220,
  998430105047230453778693200770121165749238679985637868951382991936464789325746242227453398682569768168053495623873282102836452950,
  999701984125490903637294903699706698825676784610738648973188928234104591302188866292707066715090937375360931597615642214733706770]

/-- `case 98` (Util/Gauss_Legendre_Nodes_and_Weights.hpp:24076-24534), `weights`. -/
def weights98 : List Nat := [
  764766982274313458039246045523111842930560138505291124561240354481980510215093881824847441500000000000000000000000000000000000,
  1779477041014528741695435808492083054164007893927462473984298690593979698392683802536223055000000000000000000000000000000000000,
  2793881135722130870629717178829471780447249392605804434257683251971196287447303417911585020000000000000000000000000000000000000,
  3805574085352359565515119049810426038036669447604047424875240408313843985504900869728040030000000000000000000000000000000000000,
  4813422398586770918477814677368043784952828106793337103951672125520213735502041278294811200000000000000000000000000000000000000,
  5816382546439639112763166739443989704545087637743762181720124898030069207595412252886902720000000000000000000000000000000000000,
  6813429479165215998772095709295368158463976768148200508851939186823654335796113196227901150000000000000000000000000000000000000,
  7803547379100754890979980103839506167439125823829965640446127382306162456996979045207716060000000000000000000000000000000000000,
  8785728467392263202699388710043064124877949318146594832575000184111576547559483568792504430000000000000000000000000000000000000,
  9758973402174096835347874929288817082086244065108873695533962323030600812778601849226663710000000000000000000000000000000000000,
  10722292083224317120244047700919632743554903875756503073005827767519812900573856934475706691000000000000000000000000000000000000,
  11674704577138124287428767280658395674517345538191522912160165627358656135828506270195945800000000000000000000000000000000000000,
  12615242078921952857781432458836257335839840540353890388979916441407968009685649174285283626000000000000000000000000000000000000,
  13542947881029465143647606240975033318957573714129446253402273688440192843528981924360348912200000000000000000000000000000000000,
  14456878338304401977568910801798757456974278385715977251439124986787590748126237113592678790200000000000000000000000000000000000,
  15356103823497755768498006283914381279562286918841476431489465622142122807219648141142987513500000000000000000000000000000000000,
  16239709670453695652726504931672437751910690409692368030739149067258503456464220689581764605130000000000000000000000000000000000,
  17106797103089900262354408928455399521840591983566438488448680450234172651968492982615629557470000000000000000000000000000000000,
  17956484148770628122442804471702336304628152261951205121262318629755688394792459951118820067844000000000000000000000000000000000,
  18787906534904686561486966165212012828168692723149266529303897195846099155177681355085527563208000000000000000000000000000000000,
  19600218567726330773237264589351074934143141256399344129412758814531101298191752907634657835122000000000000000000000000000000000,
  20392593992291914579483780525865118739713918361213758828654944023013034537817490953707497455556090000000000000000000000000000000,
  21164226832774856911280158471122151762337552698712313217392578766828063006329250250874973142245660000000000000000000000000000000,
  21914332212178650419019122463752025266964918651721764480199133291838682177918316161329042735814404000000000000000000000000000000,
  22642147150618433111263042729890859572539491551089541403310205871874253014410743444109022853368322000000000000000000000000000000,
  23346931341349274712682940528166736720404996265702776335392860530498068182627185103879461452177710900000000000000000000000000000,
  24027967903745498803241226659241720694121260166238833488812203340029837051716932348808762407538418380000000000000000000000000000,
  24684564112460996181979616262330424976278807636092170166954177200871118966651154640190645351537968635000000000000000000000000000,
  25316052102026097343146602977049732498890202490718720470332132082168106243661180190759439778194252423000000000000000000000000000,
  25921789546162448918468180344082774480464252515723501086547308353990519963940992167307422284264183132560000000000000000000000000,
  26501160311123639352487513082038484334523984507563561888914596948789920743439975505709322813155866256784000000000000000000000000,
  27053575082396128277675915062240186766666802435576601512159596435691093064430374820291929268410121454191300000000000000000000000,
  27578471964122393900099947260329443548766392958981425574657898995410423207550501960834326518215806238771950000000000000000000000,
  28075317050636138753245698411936684061068652480769848283199078195344908481775276942353642807834423079591972000000000000000000000,
  28543604969527885703490390527091736306160148386835752366085032395114448144305391004506875680064233220913937200000000000000000000,
  28982859395688342047449061743400329837419532843243297447754181564384589840065421531788518177427124756979848470000000000000000000,
  29392633535806492167763161544595821473318248737604713331615839131490826825895348021858751365419164828572019607000000000000000000,
  29772510582829476266175715925518041213607237908646215675723098352735332637854854703262987784934059486936589076590000000000000000,
  30122104139921898848530981485692687033905832099441523754357645901589270924308533256589742226359765014266283690378000000000000000,
  30441058613493258394907649467472499112222030376481423207013055777766851829300048753240386571754467035163101862123000000000000000,
  30729049574893669920013606082796405657835719414957834160803397627052463317128714089497970746068095265779952853433330000000000000,
  30985784090409934631042865569020583613426320534101319318541486650181585955046244831091617785892200477383728965346177900000000000,
  31211001019226264416840627335097951077509079649374661933306678238737173554639595363538861724439590966246755312665520560000000000,
  31404471279046561517488612064589614802756116114493946439038242396824059577014786631777922233670373293438227061881749839000000000,
  31565998079108052901450907541654247256710234717566294794964822989258796574603759765671642943053895803644049864293422463540000000,
  31695417120349251609074079347755866965328780357502357701788276610300163960709419404260482351022817982904402130538059262317000000,
  31792596762528630198317838385511742769592783284381511377607713172208072044922863948787346813694052193932151932352653924130330000,
  31857438158124010713099188842048710642774615467192338802267253879380833904446259845828531301740432450609890414918432617532140000,
  31889875352876467277945010554277817926650891187911214922205694180162316288143283751416327654719142705167820973349629071447598690,
  31889875352876467277945010554277817926650891187911214922205694180162316288143283751416327654719142705167820973349629071447598690,
  31857438158124010713099188842048710642774615467192338802267253879380833904446259845828531301740432450609890414918432617532140000,
  31792596762528630198317838385511742769592783284381511377607713172208072044922863948787346813694052193932151932352653924130330000,
  31695417120349251609074079347755866965328780357502357701788276610300163960709419404260482351022817982904402130538059262317000000,
  31565998079108052901450907541654247256710234717566294794964822989258796574603759765671642943053895803644049864293422463540000000,
  31404471279046561517488612064589614802756116114493946439038242396824059577014786631777922233670373293438227061881749839000000000,
  31211001019226264416840627335097951077509079649374661933306678238737173554639595363538861724439590966246755312665520560000000000,
  30985784090409934631042865569020583613426320534101319318541486650181585955046244831091617785892200477383728965346177900000000000,
  30729049574893669920013606082796405657835719414957834160803397627052463317128714089497970746068095265779952853433330000000000000,
  30441058613493258394907649467472499112222030376481423207013055777766851829300048753240386571754467035163101862123000000000000000,
  30122104139921898848530981485692687033905832099441523754357645901589270924308533256589742226359765014266283690378000000000000000,
  29772510582829476266175715925518041213607237908646215675723098352735332637854854703262987784934059486936589076590000000000000000,
  29392633535806492167763161544595821473318248737604713331615839131490826825895348021858751365419164828572019607000000000000000000,
  28982859395688342047449061743400329837419532843243297447754181564384589840065421531788518177427124756979848470000000000000000000,
  28543604969527885703490390527091736306160148386835752366085032395114448144305391004506875680064233220913937200000000000000000000,
  28075317050636138753245698411936684061068652480769848283199078195344908481775276942353642807834423079591972000000000000000000000,
  27578471964122393900099947260329443548766392958981425574657898995410423207550501960834326518215806238771950000000000000000000000,
  27053575082396128277675915062240186766666802435576601512159596435691093064430374820291929268410121454191300000000000000000000000,
  26501160311123639352487513082038484334523984507563561888914596948789920743439975505709322813155866256784000000000000000000000000,
  25921789546162448918468180344082774480464252515723501086547308353990519963940992167307422284264183132560000000000000000000000000,
  25316052102026097343146602977049732498890202490718720470332132082168106243661180190759439778194252423000000000000000000000000000,
  24684564112460996181979616262330424976278807636092170166954177200871118966651154640190645351537968635000000000000000000000000000,
  24027967903745498803241226659241720694121260166238833488812203340029837051716932348808762407538418380000000000000000000000000000,
  23346931341349274712682940528166736720404996265702776335392860530498068182627185103879461452177710900000000000000000000000000000,
  22642147150618433111263042729890859572539491551089541403310205871874253014410743444109022853368322000000000000000000000000000000,
  21914332212178650419019122463752025266964918651721764480199133291838682177918316161329042735814404000000000000000000000000000000,
  21164226832774856911280158471122151762337552698712313217392578766828063006329250250874973142245660000000000000000000000000000000,
  20392593992291914579483780525865118739713918361213758828654944023013034537817490953707497455556090000000000000000000000000000000,
  19600218567726330773237264589351074934143141256399344129412758814531101298191752907634657835122000000000000000000000000000000000,
  18787906534904686561486966165212012828168692723149266529303897195846099155177681355085527563208000000000000000000000000000000000,
  17956484148770628122442804471702336304628152261951205121262318629755688394792459951118820067844000000000000000000000000000000000,
  17106797103089900262354408928455399521840591983566438488448680450234172651968492982615629557470000000000000000000000000000000000,
  16239709670453695652726504931672437751910690409692368030739149067258503456464220689581764605130000000000000000000000000000000000,
  15356103823497755768498006283914381279562286918841476431489465622142122807219648141142987513500000000000000000000000000000000000,
  14456878338304401977568910801798757456974278385715977251439124986787590748126237113592678790200000000000000000000000000000000000,
  13542947881029465143647606240975033318957573714129446253402273688440192843528981924360348912200000000000000000000000000000000000,
  12615242078921952857781432458836257335839840540353890388979916441407968009685649174285283626000000000000000000000000000000000000,
  11674704577138124287428767280658395674517345538191522912160165627358656135828506270195945800000000000000000000000000000000000000,
  10722292083224317120244047700919632743554903875756503073005827767519812900573856934475706691000000000000000000000000000000000000,
  9758973402174096835347874929288817082086244065108873695533962323030600812778601849226663710000000000000000000000000000000000000,
  8785728467392263202699388710043064124877949318146594832575000184111576547559483568792504430000000000000000000000000000000000000,
  7803547379100754890979980103839506167439125823829965640446127382306162456996979045207716060000000000000000000000000000000000000,
  6813429479165215998772095709295368158463976768148200508851939186823654335796113196227901150000000000000000000000000000000000000,
  5816382546439639112763166739443989704545087637743762181720124898030069207595412252886902720000000000000000000000000000000000000,
  4813422398586770918477814677368043784952828106793337103951672125520213735502041278294811200000000000000000000000000000000000000,
  3805574085352359565515119049810426038036669447604047424875240408313843985504900869728040030000000000000000000000000000000000000,
  2793881135722130870629717178829471780447249392605804434257683251971196287447303417911585020000000000000000000000000000000000000,
  1779477041014528741695435808492083054164007893927462473984298690593979698392683802536223055000000000000000000000000000000000000,
  764766982274313458039246045523111842930560138505291124561240354481980510215093881824847441500000000000000000000000000000000000]

/-- `case 99` (Util/Gauss_Legendre_Nodes_and_Weights.hpp:24536-24996), `nodes`. -/
def nodes99 : List Int := [
  -999707943952169355863583849420399106219497796196195092180808036465034328938510866012171835422158739493438187923454098234617090960,
  -998461493835841338972881273993047268071486676751321263331152598039607333062849106163535782828567982557789440809182561600644151400,
  -996220338673088608562895261938084695554793697962007750267283481467735966316287514049970792577542851698171905860862465788561756300,
  -992986214133112277329634210291697600516940560890751009343161999341074086607078719888437895891413584024234304070882738982083295410,
  -988762282989873612510341854823083746551043246268543100188434754378012004804237579984236664041997463641554781632427922990261638000,
  -983552741156280012965562202054412888361747518637213761928647347905243888225986897081310186038953438023285501078701924940561938290,
  -977362776750705944569794030883332371671824085265659598707179125862398434797076138274088976591765258020824041737723770993073016270,
  -970198558074290215480729887888217158406637000406220133019553704704382345958895528727902634738719366435831451710812619960693320370,
  -962067225640901942739071328599599567589050217162806877767830058158324243376732501570470480973858677751263897298821700424249517450,
  -952976884453373502575668035663991678911402837764670234055848482951118675558421454942218705352117888004174266031132258537910559680,
  -942936595688479410294659489983257232003552769929096783908430711380916552035555177187821521496709151880033610108136883582442187990,
  -931956367561496964361650357642342244637391980766094828538638248153953010125402082701872029848798090385766948729265924050034616650,
  -920047145300500218715130281872226283218857286340834953859263673379736310586597939876723048254949008368246873667346592038906483990,
  -907220800210573568237880375241235038926135069188526745266230668521449422486416387048107697728880719663325063497965368473584574870,
  -893490117826414215002244712777587066998978968816141234386364475816412332106394237247433562930485671277569573645983775900198665030,
  -878868785159513850270077233162361495720201646291544978763569539862648808111247041863620063453614203406488414608999123032434920370,
  -863371377049917044434898377959772190352037292175010497073509618617833694504049237903733632008496553999340667348105214705292596000,
  -847013341634774147299139968967872769507184649471258048487967802642671417277115367300617445491377048146571870433543609521088455800,
  -829810984947430565029049617166623999066170141397391118235551546972308024443639639549329491630645975675164175158999580459061403020,
  -811781454661989134683012382925258011186816357706723086823623969681723256263650391247627245152609082387706006586675152891232727270,
  -792942722999308893908499502774478180347238862711166663654707914920787263623875655256284195286296391239690349966853338095133706970,
  -773313568811336145198437387411997220553149365638203548979715425031893829266721774798102652638411947684699808525695078876861926560,
  -752913558861538118254508147385464836868966655213613972434847924921832925954903782728821019038564902164892031169214795982168684940,
  -731763028320043522180818428312495624696092596471119400333113369507237676121974910914891553318237804640397931599256506091218993550,
  -709883060492896858206503244397636115695132662017840825622556363248914836413032340477884157052332149327089915957511408263199017440,
  -687295465805609097500626207482371068447138253842955481601807150712447832157750800927081449424434216660419174428631526915247435220,
  -664022760061938457558342323004931551478397297736481696503346052196247681689932345717273956547278506394221175137289235702903679320,
  -640088141999562525102820426428547086936956996284006212142227377748919680066395072357419518862258208801868164047527110198098828830,
  -615515470165007177050707181742611456386991744144826562431109163341200562998220815218373483660321165311213323854991257763895676380,
  -590329239130878564216650012806939192151699867489534772791974572906605157915154919825839689331606565374909288583730722998239125210,
  -564554555079101550743094404497593632495357079989551305933051660873259800929244837001152983940802601035101872380585237280951973730,
  -538217110774501032544868975915610039896142675515477536063139092403504184008694158021133768867921281749955340809207198234823554980,
  -511343159953671014219136815756192061412825948952089746367420588230435870343687400122932731790092270983516076666219316037700326850,
  -483959491154659700177256719778156215257373911345148248714651128010712224351569504970330726081034505727443417886079006663021097930,
  -456093401013556637292960551355338878066836940862635493704731565318872197428418759175630200210230222022561824586264776131431556160,
  -427772667054599621755167603235507671138203653446836884403144345532376774047986600547676874054248135481489165585908107505649680310,
  -399025520000924152379317790613792417815933258751466799421191445573470431213183550976554839403269533455229496915866214594857901620,
  -369880615633556193728666925661311377818614759535032491292515234074408785408756369194663566142708179838611385840346911650515265410,
  -340367006226699443041390989923755884474369412519026735085182751434837655153139535014317878393685439266628618274959664411187384600,
  -310514111587790736323991216381810971063371272899878543303815146519569796664547682435106861185586939783410546270321766813475589860,
  -280351689731191267177664844289316089375719455497295841643543624153545073461614067796157207612460182597308933397294209526909481920,
  -249909807214746539358834394695103537631701144644707152683955554022682845867661927137109453685929191694571973864541637288257821180,
  -219218809168784070389443830105524692323526477835731337516129133254694694794097451270612484532247530349351325893038009300590059300,
  -188309289047424476421634946930761628006208196602328643451689880055732802761864503073680087665295808525990757793787288915182138030,
  -157212058132358394383799434404284325839669994608899867883242444966783171812343124394965399521233776330813852785961935340250195050,
  -125958114819488461718240752955369452793175718037845584020719516772382704283159526606579475376238806240872411607575513854082934590,
  -94578613719052031876438550482139092559431623651292507629178047185172485159338422670331338196744261295295064944149489054397754810,
  -63104834600026240206507928375040204707998271287357057484957568883322848719919628337176007142641320654381428384045138466157742242,
  -31568151209772265203458126467261021977657829568017930301375797254478121482003042596997760761416163069668517963468157216953949922,
  0,
  31568151209772265203458126467261021977657829568017930301375797254478121482003042596997760761416163069668517963468157216953949922,
  63104834600026240206507928375040204707998271287357057484957568883322848719919628337176007142641320654381428384045138466157742242,
  94578613719052031876438550482139092559431623651292507629178047185172485159338422670331338196744261295295064944149489054397754810,
  125958114819488461718240752955369452793175718037845584020719516772382704283159526606579475376238806240872411607575513854082934590,
  157212058132358394383799434404284325839669994608899867883242444966783171812343124394965399521233776330813852785961935340250195050,
  188309289047424476421634946930761628006208196602328643451689880055732802761864503073680087665295808525990757793787288915182138030,
  219218809168784070389443830105524692323526477835731337516129133254694694794097451270612484532247530349351325893038009300590059300,
  249909807214746539358834394695103537631701144644707152683955554022682845867661927137109453685929191694571973864541637288257821180,
  280351689731191267177664844289316089375719455497295841643543624153545073461614067796157207612460182597308933397294209526909481920,
  310514111587790736323991216381810971063371272899878543303815146519569796664547682435106861185586939783410546270321766813475589860,
  340367006226699443041390989923755884474369412519026735085182751434837655153139535014317878393685439266628618274959664411187384600,
  369880615633556193728666925661311377818614759535032491292515234074408785408756369194663566142708179838611385840346911650515265410,
  399025520000924152379317790613792417815933258751466799421191445573470431213183550976554839403269533455229496915866214594857901620,
  427772667054599621755167603235507671138203653446836884403144345532376774047986600547676874054248135481489165585908107505649680310,
  456093401013556637292960551355338878066836940862635493704731565318872197428418759175630200210230222022561824586264776131431556160,
  483959491154659700177256719778156215257373911345148248714651128010712224351569504970330726081034505727443417886079006663021097930,
  511343159953671014219136815756192061412825948952089746367420588230435870343687400122932731790092270983516076666219316037700326850,
  538217110774501032544868975915610039896142675515477536063139092403504184008694158021133768867921281749955340809207198234823554980,
  564554555079101550743094404497593632495357079989551305933051660873259800929244837001152983940802601035101872380585237280951973730,
  590329239130878564216650012806939192151699867489534772791974572906605157915154919825839689331606565374909288583730722998239125210,
  615515470165007177050707181742611456386991744144826562431109163341200562998220815218373483660321165311213323854991257763895676380,
  640088141999562525102820426428547086936956996284006212142227377748919680066395072357419518862258208801868164047527110198098828830,
  664022760061938457558342323004931551478397297736481696503346052196247681689932345717273956547278506394221175137289235702903679320,
  687295465805609097500626207482371068447138253842955481601807150712447832157750800927081449424434216660419174428631526915247435220,
  709883060492896858206503244397636115695132662017840825622556363248914836413032340477884157052332149327089915957511408263199017440,
  731763028320043522180818428312495624696092596471119400333113369507237676121974910914891553318237804640397931599256506091218993550,
  752913558861538118254508147385464836868966655213613972434847924921832925954903782728821019038564902164892031169214795982168684940,
  773313568811336145198437387411997220553149365638203548979715425031893829266721774798102652638411947684699808525695078876861926560,
  792942722999308893908499502774478180347238862711166663654707914920787263623875655256284195286296391239690349966853338095133706970,
  811781454661989134683012382925258011186816357706723086823623969681723256263650391247627245152609082387706006586675152891232727270,
  829810984947430565029049617166623999066170141397391118235551546972308024443639639549329491630645975675164175158999580459061403020,
  847013341634774147299139968967872769507184649471258048487967802642671417277115367300617445491377048146571870433543609521088455800,
  863371377049917044434898377959772190352037292175010497073509618617833694504049237903733632008496553999340667348105214705292596000,
  878868785159513850270077233162361495720201646291544978763569539862648808111247041863620063453614203406488414608999123032434920370,
  893490117826414215002244712777587066998978968816141234386364475816412332106394237247433562930485671277569573645983775900198665030,
  907220800210573568237880375241235038926135069188526745266230668521449422486416387048107697728880719663325063497965368473584574870,
  920047145300500218715130281872226283218857286340834953859263673379736310586597939876723048254949008368246873667346592038906483990,
  931956367561496964361650357642342244637391980766094828538638248153953010125402082701872029848798090385766948729265924050034616650,
  942936595688479410294659489983257232003552769929096783908430711380916552035555177187821521496709151880033610108136883582442187990,
  952976884453373502575668035663991678911402837764670234055848482951118675558421454942218705352117888004174266031132258537910559680,
  962067225640901942739071328599599567589050217162806877767830058158324243376732501570470480973858677751263897298821700424249517450,
  970198558074290215480729887888217158406637000406220133019553704704382345958895528727902634738719366435831451710812619960693320370,
  977362776750705944569794030883332371671824085265659598707179125862398434797076138274088976591765258020824041737723770993073016270,
  983552741156280012965562202054412888361747518637213761928647347905243888225986897081310186038953438023285501078701924940561938290,
  988762282989873612510341854823083746551043246268543100188434754378012004804237579984236664041997463641554781632427922990261638000,
  992986214133112277329634210291697600516940560890751009343161999341074086607078719888437895891413584024234304070882738982083295410,
  996220338673088608562895261938084695554793697962007750267283481467735966316287514049970792577542851698171905860862465788561756300,
  998461493835841338972881273993047268071486676751321263331152598039607333062849106163535782828567982557789440809182561600644151400,
  999707943952169355863583849420399106219497796196195092180808036465034328938510866012171835422158739493438187923454098234617090960]

/-- `case 99` (Util/Gauss_Legendre_Nodes_and_Weights.hpp:24536-24996), `weights`. -/
def weights99 : List Nat := [
  749473646737405363375249945977729983177987495063871062820393433436662283511180597292931170000000000000000000000000000000000000,
  1743906958219244938636623199909769128773495231408844232507922157377877487110132821959578400000000000000000000000000000000000000,
  2738075873626878091324676281461073263559419783422096817416651721115394253842109049190970140000000000000000000000000000000000000,
  3729643487243034749198824215210762996070048803988859343639028934167707372344030011119579570000000000000000000000000000000000000,
  4717519037520830079687455364417386349321531148338918011457441322616904465691690164844384630000000000000000000000000000000000000,
  5700699773395926875152393478149994327776004778650792248046257132153156706231440503063455160000000000000000000000000000000000000,
  6678200860575098165184062889300052369502862845236428051220605549435882527913815796391805410000000000000000000000000000000000000,
  7649046279335257935390467290754760611054386456032794146032239544931622688644507214781879640000000000000000000000000000000000000,
  8612267615478888991732844046888007569949398006077047957497475486512183982193772091759625650000000000000000000000000000000000000,
  9566904411326136356898866341585966467365425006960596151226030106595108731730226280367061990000000000000000000000000000000000000,
  10512004915524745405748984186862975098176834870906788342433029367071125217489972826922296570000000000000000000000000000000000000,
  11446626951498253761132546662799458726830081496478461091067698399334854053222659243045592783000000000000000000000000000000000000,
  12369838822175162103433415889384934152107912440545685592075465615187005764448445843482670384000000000000000000000000000000000000,
  13280720222657283479953915067273578352499317318411435008479728563585231524802552791088565860000000000000000000000000000000000000,
  14178363149579446066142955159092753107410393542685506043568003544408142136414428728459864368200000000000000000000000000000000000,
  15061872801990233312952973965146014928701220646608339091086712774512087755912121867167635497900000000000000000000000000000000000,
  15930368470960849711037784413244657600349722220797025905621027366757805425844309707959664946900000000000000000000000000000000000,
  16782984416138707089502681024737259281189715415522567837832999170254563067123620699571485005840000000000000000000000000000000000,
  17618870727924380506757254420763234092679106537425772775832896348062375167916521439165256235360000000000000000000000000000000000,
  18437194174178499270985451903982681192637488790738790217036175809157296169390190070813624858363000000000000000000000000000000000,
  19237139030487184798673823111073047489557721079392245050712253547261513372850056657597285906232000000000000000000000000000000000,
  20017907893086566207947679293068498044961059496116660548872485098673182155929006743664359336973500000000000000000000000000000000,
  20778722473594211207425229907088745371910359574874430760833365928338708927603473193932864091433010000000000000000000000000000000,
  21518824374730223818246660098463007752793764895589260756517745315244378716566224786495474883142000000000000000000000000000000000,
  22237475846239371584355774080087986399573088650528237800379550599144580732199750926576079305366619000000000000000000000000000000,
  22933960520251055284083246902868285437377507147583151760498864587426032312463857475960545591996236200000000000000000000000000000,
  23607584125337894046617912889276244105201662771306155518652260402985320181313877730348784749895199000000000000000000000000000000,
  24257675178557078231640402699073675226482356897695272080164921880153188052365482930377032295695342426000000000000000000000000000,
  24883585654781946445987283031509808563512092578676326757926779553511207628789737916641463095469102322000000000000000000000000000,
  25484691632654754650582349242766034545507353413559816936943064828197096014592283642294022034586645902300000000000000000000000000,
  26060393916515482540928675691501098987287907322560785288806164820293718282295558185134707031841549752140000000000000000000000000,
  26610118633685851301792173644569025546223270577206878365438966844751681862429147994947553649957699459754000000000000000000000000,
  27133317806512550926393265876716604575454897974934276129317521486720995195411476675897644067897917840663400000000000000000000000,
  27629469898599012322076108141121327091948063589805596847140169652359342016585694898803911412427756685120800000000000000000000000,
  28098080334680911265934250529454885329833985808563434565502830855831136051359804750423973094064523802025767000000000000000000000,
  28538681993626949726636932104397865857823987015441724934914250150567806224107063296765786864508402482844594760000000000000000000,
  28950835674073310403738564576386995494282654039471280217945157849138747130366539693567711972761160156952754767000000000000000000,
  29334130532227503476433308997182319046931185367724063186357974184463166109114782683485321346350346649296950474000000000000000000,
  29688184491405098448017635606839695660163686566650601726487240499854814426496697184801776743443028376564477323300000000000000000,
  30012644622891034471902825694197446567827997048773642090530788252871685892736278701497278667645405779825378602356000000000000000,
  30307187497745803979612705638474123793701701893303175890909538270140385576969101304156559525302943751370970892367370000000000000,
  30571519509205779992182099419164044901448831051456650240994503062470380042315960655357536203177682081768678346175360000000000000,
  30805377165356279499179244270294318588245931323698837134310817634151635996892755181474058955797414599357764485355253900000000000,
  31008527351785595358334918659034126421973107100371735153207876178683345644395290213933369754208371840476111983065398107000000000,
  31180767563958158370334414131539087441773007482489107289795877430452927200082849926871010867435919548920396368534563441800000000,
  31321926109075180128174692800964826988828102841181185513326000388380751079549702235911356354580958945967074818166721255210000000,
  31431862277221546161521275186840644499615555592526950021717880027132342165611487190807883639759159856029357683015076649566400000,
  31510466481628347713237949139953998233334223346787354795561369765881937190414677270326467575974742768772008366902406651180430000,
  31557660367911228858092088230615062151120559195930362767730768295959673157813876814300723880679577823718308698766072878223807900,
  31573396892175653051374169317068240572344051041000359883210460524570667757199550778399057661822146141495554289326167492593180173,
  31557660367911228858092088230615062151120559195930362767730768295959673157813876814300723880679577823718308698766072878223807900,
  31510466481628347713237949139953998233334223346787354795561369765881937190414677270326467575974742768772008366902406651180430000,
  31431862277221546161521275186840644499615555592526950021717880027132342165611487190807883639759159856029357683015076649566400000,
  31321926109075180128174692800964826988828102841181185513326000388380751079549702235911356354580958945967074818166721255210000000,
  31180767563958158370334414131539087441773007482489107289795877430452927200082849926871010867435919548920396368534563441800000000,
  31008527351785595358334918659034126421973107100371735153207876178683345644395290213933369754208371840476111983065398107000000000,
  30805377165356279499179244270294318588245931323698837134310817634151635996892755181474058955797414599357764485355253900000000000,
  30571519509205779992182099419164044901448831051456650240994503062470380042315960655357536203177682081768678346175360000000000000,
  30307187497745803979612705638474123793701701893303175890909538270140385576969101304156559525302943751370970892367370000000000000,
  30012644622891034471902825694197446567827997048773642090530788252871685892736278701497278667645405779825378602356000000000000000,
  29688184491405098448017635606839695660163686566650601726487240499854814426496697184801776743443028376564477323300000000000000000,
  29334130532227503476433308997182319046931185367724063186357974184463166109114782683485321346350346649296950474000000000000000000,
  28950835674073310403738564576386995494282654039471280217945157849138747130366539693567711972761160156952754767000000000000000000,
  28538681993626949726636932104397865857823987015441724934914250150567806224107063296765786864508402482844594760000000000000000000,
  28098080334680911265934250529454885329833985808563434565502830855831136051359804750423973094064523802025767000000000000000000000,
  27629469898599012322076108141121327091948063589805596847140169652359342016585694898803911412427756685120800000000000000000000000,
  27133317806512550926393265876716604575454897974934276129317521486720995195411476675897644067897917840663400000000000000000000000,
  26610118633685851301792173644569025546223270577206878365438966844751681862429147994947553649957699459754000000000000000000000000,
  26060393916515482540928675691501098987287907322560785288806164820293718282295558185134707031841549752140000000000000000000000000,
  25484691632654754650582349242766034545507353413559816936943064828197096014592283642294022034586645902300000000000000000000000000,
  24883585654781946445987283031509808563512092578676326757926779553511207628789737916641463095469102322000000000000000000000000000,
  24257675178557078231640402699073675226482356897695272080164921880153188052365482930377032295695342426000000000000000000000000000,
  23607584125337894046617912889276244105201662771306155518652260402985320181313877730348784749895199000000000000000000000000000000,
  22933960520251055284083246902868285437377507147583151760498864587426032312463857475960545591996236200000000000000000000000000000,
  22237475846239371584355774080087986399573088650528237800379550599144580732199750926576079305366619000000000000000000000000000000,
  21518824374730223818246660098463007752793764895589260756517745315244378716566224786495474883142000000000000000000000000000000000,
  20778722473594211207425229907088745371910359574874430760833365928338708927603473193932864091433010000000000000000000000000000000,
  20017907893086566207947679293068498044961059496116660548872485098673182155929006743664359336973500000000000000000000000000000000,
  19237139030487184798673823111073047489557721079392245050712253547261513372850056657597285906232000000000000000000000000000000000,
  18437194174178499270985451903982681192637488790738790217036175809157296169390190070813624858363000000000000000000000000000000000,
  17618870727924380506757254420763234092679106537425772775832896348062375167916521439165256235360000000000000000000000000000000000,
  16782984416138707089502681024737259281189715415522567837832999170254563067123620699571485005840000000000000000000000000000000000,
  15930368470960849711037784413244657600349722220797025905621027366757805425844309707959664946900000000000000000000000000000000000,
  15061872801990233312952973965146014928701220646608339091086712774512087755912121867167635497900000000000000000000000000000000000,
  14178363149579446066142955159092753107410393542685506043568003544408142136414428728459864368200000000000000000000000000000000000,
  13280720222657283479953915067273578352499317318411435008479728563585231524802552791088565860000000000000000000000000000000000000,
  12369838822175162103433415889384934152107912440545685592075465615187005764448445843482670384000000000000000000000000000000000000,
  11446626951498253761132546662799458726830081496478461091067698399334854053222659243045592783000000000000000000000000000000000000,
  10512004915524745405748984186862975098176834870906788342433029367071125217489972826922296570000000000000000000000000000000000000,
  9566904411326136356898866341585966467365425006960596151226030106595108731730226280367061990000000000000000000000000000000000000,
  8612267615478888991732844046888007569949398006077047957497475486512183982193772091759625650000000000000000000000000000000000000,
  7649046279335257935390467290754760611054386456032794146032239544931622688644507214781879640000000000000000000000000000000000000,
  6678200860575098165184062889300052369502862845236428051220605549435882527913815796391805410000000000000000000000000000000000000,
  5700699773395926875152393478149994327776004778650792248046257132153156706231440503063455160000000000000000000000000000000000000,
  4717519037520830079687455364417386349321531148338918011457441322616904465691690164844384630000000000000000000000000000000000000,
  3729643487243034749198824215210762996070048803988859343639028934167707372344030011119579570000000000000000000000000000000000000,
  2738075873626878091324676281461073263559419783422096817416651721115394253842109049190970140000000000000000000000000000000000000,
  1743906958219244938636623199909769128773495231408844232507922157377877487110132821959578400000000000000000000000000000000000000,
  749473646737405363375249945977729983177987495063871062820393433436662283511180597292931170000000000000000000000000000000000000]

/-- `case 100` (Util/Gauss_Legendre_Nodes_and_Weights.hpp:24998-25462), `nodes`. -/
def nodes100 : List Int := [
  -999713726773441233678228469342300676718349527308403226734198319332577832629065023742148153227300393131659895904079747101984209850,
  -998491950639595818400163359186349162304854850420569701572731621697796192051837536260414274634421370941706765464627978640150648640,
  -996295134733125149186131732241131035436431288140430379450068049632633203583677958923838676423567323314115743009503524050197171010,
  -993124937037443459652009892848783470731771458866520378656887746275040758115950356209508999221080717778729863161431969358630474800,
  -988984395242991748004418745807736631839333637106947527751815161668937635242030713726638482459771997459611987450190579250332881680,
  -983877540706057015496100155511008167344367016850802210348877718312429655267963192510245100060639196384472332665264988417157964620,
  -977809358486918288553781088429201928635234494266253978308576649096992608182694210635427696196825182993774483207755208442531488970,
  -970785775763706331930897857897505388550557199478207136291709670747070387695618903906362569657575928349096385957063689460636577360,
  -962813654255815527293659326030166386437331506730414140978234026022028847496266753234159384336090097082619570684212169395622963250,
  -953900782925491742849336930894357644645221451014667747667032915183023761430639133783370678271809277973866246395673917213431070580,
  -944055870136255977962774706415218746739720373382096871629634286056503338328288207070409636936803073178013218134743854476287247430,
  -933288535043079545924333668130862504083546074297019295847958242896337961525897149769642427337050594518692907402572628175557766680,
  -921609298145333952666951328481987459124582797732196146614931921218195795972266744371780033114967927975075933566500861000007688530,
  -909029570982529690467126337789146064443277289584588938085126319319215912592098459206031562915346958496770456681298260327389932390,
  -895561644970726986698521022430227769848181768997719829979354805769276996243791155269874478803098406461422262960830167423636241140,
  -881218679385018415573316825427805582445494411021257802940893987951174459161487620252130848071724207852308045290331949509381826710,
  -866014688497164623410739969676242966380314839305593072136282353093368594223154778449006270143043096032142014072155036441108271400,
  -849964527879591284293362591420104654073790779500672354335728252552564403093558318913116900675984556967471338175135534727477867670,
  -833083879888400823542915833844755679907494830309962259303066074958072204590581146676889802110150948538670039188360069821542238620,
  -815389238339176254393988758649258005382550376513702722899807460337444499134961557342168932697319317418890720940494098401423645600,
  -796897892390314476389572882183245982889526855964290502189769185136542976391004481123193171039428848169828362357194968957568557770,
  -777627909649495475627551386834490106538539799936078875018736366204085545691306271484407628487627100101435279427459934723213402880,
  -757598118519707176035667964438400772313108971900041712675786102724641577680314245882729372516166304905421516517489367789169396450,
  -736828089802020705512427714820101002843278446247123442237371728824402128651197433830777684074036003835640940105016603498404885720,
  -715338117573056446459967122704365964084397838595629634637245297136978235410823247429237165354876671422084013366714200054050592860,
  -693149199355801965948647941675437265587000017930728453774653427666076453733405503884710598528041338251284319075887350906742450930,
  -670283015603141015802587014323226613669805684028823954406436368010792386749372930593431674813247943215456943379048016784538335780,
  -646761908514129279832630304458630435019733784248528000988170844528331185516142757842263720433434058984637971511514436838848616410,
  -622608860203707771604190845172312244653817732289816002085983175680670039750377909875646119650269943191807113178143381750743280090,
  -597847470247178721264806545149340636394899192320485335589065452545158277007690248980204709300664890868852912622236153158530744540,
  -572501932621381191316870443525725448960033949675560278042862390259424133805969824265645882877693555649893702310077735934235980840,
  -546597012065094167467994257181749903956241775937527811622025329075836937974983526316596196577120277388662969575207094072649035230,
  -520158019881763056646815749455208530768937690420093853408521370059236181474422311983096209858724706936115220899488025198053352280,
  -493210789208190933569308793449333990990723325358556126911110030969004791568820048571210590395912314644039699878150399138024460310,
  -465781649773358042249216623395754581611651110212210966338473617184169625903263418937798161239393918470704589908419765774983427600,
  -437897402172031513108978043622195962125701763484104595188310204051123144653702500742791038769342534021508150074899277054147189060,
  -409585291678301542528868400057157701495364389164754559341833240603399657533183034580679562869057365875820370144047359430974627540,
  -380872981624629956763362548869587403749707265123710923668891852989693903927154147104450057757962924427691393041552665656824393670,
  -351788526372421720972343829548970565249318096389071201176484198277195921158383376002149440896895045908614926138414457088839984820,
  -322360343900529151722476582398325427402191623023085707139623546483800168797867570515395534777772484458980371162918114780560064390,
  -292617188038471964737555888235494384561538989172580972096661659147927586630358826190885530992301819770034343188017416728732563180,
  -262588120371503479168929336254982141132022694535522135661968526343636032336492332556520691140961464492543720446930170776669320690,
  -232302481844973969649509963207964110697509771507136913759013920713636939599104991070832417284943497417419861929924272079225389040,
  -201789864095735997236048859530396462943692003559048911276210542292667315087588287054871097000473998259790176299344617396295384280,
  -171080080538603274887532374707089807465859725118066774687333733822605616907970579199403706186237367010133386251487844720733790260,
  -140203137236113973207514604682405516616873006263359772033590928199772986174381629948144393974709219887801545302366134991340385680,
  -109189203580061115003426006579384886884899629969163393376959451862450669817842584712006026126235054219083597459128967361282345420,
  -78068582813436636694817371201552573976350027448530116055229733175736429019241470658949040791848992053565879466771849267612035707,
  -46871682421591631614923912933848309537065399086024079631272622119450114205307132417308500259340009265325796819561669787212207536,
  -15628984421543082872216699997429340147756182855561472713798730873586490591704259056382743185414295314228956769322016635490550070,
  15628984421543082872216699997429340147756182855561472713798730873586490591704259056382743185414295314228956769322016635490550070,
  46871682421591631614923912933848309537065399086024079631272622119450114205307132417308500259340009265325796819561669787212207536,
  78068582813436636694817371201552573976350027448530116055229733175736429019241470658949040791848992053565879466771849267612035707,
  109189203580061115003426006579384886884899629969163393376959451862450669817842584712006026126235054219083597459128967361282345420,
  140203137236113973207514604682405516616873006263359772033590928199772986174381629948144393974709219887801545302366134991340385680,
  171080080538603274887532374707089807465859725118066774687333733822605616907970579199403706186237367010133386251487844720733790260,
  201789864095735997236048859530396462943692003559048911276210542292667315087588287054871097000473998259790176299344617396295384280,
  232302481844973969649509963207964110697509771507136913759013920713636939599104991070832417284943497417419861929924272079225389040,
  262588120371503479168929336254982141132022694535522135661968526343636032336492332556520691140961464492543720446930170776669320690,
  292617188038471964737555888235494384561538989172580972096661659147927586630358826190885530992301819770034343188017416728732563180,
  322360343900529151722476582398325427402191623023085707139623546483800168797867570515395534777772484458980371162918114780560064390,
  351788526372421720972343829548970565249318096389071201176484198277195921158383376002149440896895045908614926138414457088839984820,
  380872981624629956763362548869587403749707265123710923668891852989693903927154147104450057757962924427691393041552665656824393670,
  409585291678301542528868400057157701495364389164754559341833240603399657533183034580679562869057365875820370144047359430974627540,
  437897402172031513108978043622195962125701763484104595188310204051123144653702500742791038769342534021508150074899277054147189060,
  465781649773358042249216623395754581611651110212210966338473617184169625903263418937798161239393918470704589908419765774983427600,
  493210789208190933569308793449333990990723325358556126911110030969004791568820048571210590395912314644039699878150399138024460310,
  520158019881763056646815749455208530768937690420093853408521370059236181474422311983096209858724706936115220899488025198053352280,
  546597012065094167467994257181749903956241775937527811622025329075836937974983526316596196577120277388662969575207094072649035230,
  572501932621381191316870443525725448960033949675560278042862390259424133805969824265645882877693555649893702310077735934235980840,
  597847470247178721264806545149340636394899192320485335589065452545158277007690248980204709300664890868852912622236153158530744540,
  622608860203707771604190845172312244653817732289816002085983175680670039750377909875646119650269943191807113178143381750743280090,
  646761908514129279832630304458630435019733784248528000988170844528331185516142757842263720433434058984637971511514436838848616410,
  670283015603141015802587014323226613669805684028823954406436368010792386749372930593431674813247943215456943379048016784538335780,
  693149199355801965948647941675437265587000017930728453774653427666076453733405503884710598528041338251284319075887350906742450930,
  715338117573056446459967122704365964084397838595629634637245297136978235410823247429237165354876671422084013366714200054050592860,
  736828089802020705512427714820101002843278446247123442237371728824402128651197433830777684074036003835640940105016603498404885720,
  757598118519707176035667964438400772313108971900041712675786102724641577680314245882729372516166304905421516517489367789169396450,
  777627909649495475627551386834490106538539799936078875018736366204085545691306271484407628487627100101435279427459934723213402880,
  796897892390314476389572882183245982889526855964290502189769185136542976391004481123193171039428848169828362357194968957568557770,
  815389238339176254393988758649258005382550376513702722899807460337444499134961557342168932697319317418890720940494098401423645600,
  833083879888400823542915833844755679907494830309962259303066074958072204590581146676889802110150948538670039188360069821542238620,
  849964527879591284293362591420104654073790779500672354335728252552564403093558318913116900675984556967471338175135534727477867670,
  866014688497164623410739969676242966380314839305593072136282353093368594223154778449006270143043096032142014072155036441108271400,
  881218679385018415573316825427805582445494411021257802940893987951174459161487620252130848071724207852308045290331949509381826710,
  895561644970726986698521022430227769848181768997719829979354805769276996243791155269874478803098406461422262960830167423636241140,
  909029570982529690467126337789146064443277289584588938085126319319215912592098459206031562915346958496770456681298260327389932390,
  921609298145333952666951328481987459124582797732196146614931921218195795972266744371780033114967927975075933566500861000007688530,
  933288535043079545924333668130862504083546074297019295847958242896337961525897149769642427337050594518692907402572628175557766680,
  944055870136255977962774706415218746739720373382096871629634286056503338328288207070409636936803073178013218134743854476287247430,
  953900782925491742849336930894357644645221451014667747667032915183023761430639133783370678271809277973866246395673917213431070580,
  962813654255815527293659326030166386437331506730414140978234026022028847496266753234159384336090097082619570684212169395622963250,
  970785775763706331930897857897505388550557199478207136291709670747070387695618903906362569657575928349096385957063689460636577360,
  977809358486918288553781088429201928635234494266253978308576649096992608182694210635427696196825182993774483207755208442531488970,
  983877540706057015496100155511008167344367016850802210348877718312429655267963192510245100060639196384472332665264988417157964620,
  988984395242991748004418745807736631839333637106947527751815161668937635242030713726638482459771997459611987450190579250332881680,
  993124937037443459652009892848783470731771458866520378656887746275040758115950356209508999221080717778729863161431969358630474800,
  996295134733125149186131732241131035436431288140430379450068049632633203583677958923838676423567323314115743009503524050197171010,
  998491950639595818400163359186349162304854850420569701572731621697796192051837536260414274634421370941706765464627978640150648640,
  999713726773441233678228469342300676718349527308403226734198319332577832629065023742148153227300393131659895904079747101984209850]

/-- `case 100` (Util/Gauss_Legendre_Nodes_and_Weights.hpp:24998-25462), `weights`. -/
def weights100 : List Nat := [
  734634490505671730406320658330336390670473562482907839287269508983350629830805913215465244000000000000000000000000000000000000,
  1709392653518105239529358371491195243731385491462579803600748923408444595204218696051161490000000000000000000000000000000000000,
  2683925371553482419439590429001120081931114950998276269064431823948822648373602275678181160000000000000000000000000000000000000,
  3655961201326375182342458727525195699206567405152203821841102959630709018082824274831168400000000000000000000000000000000000000,
  4624450063422119351095789082978476650352495294894529361926377047091256462864416733472735500000000000000000000000000000000000000,
  5588428003865515157211946348439210731318694008077152644014249922242465918842749262878309000000000000000000000000000000000000000,
  6546948450845322764152103331495263699938363366476002001722817425086406363422075678973396300000000000000000000000000000000000000,
  7499073255464711578828744016397783163583478948145093420303868488370148536738955702470101000000000000000000000000000000000000000,
  8443871469668971402620834902301001934644459884101413435432633219294674997559154063545872800000000000000000000000000000000000000,
  9380419653694457951418237660812118730787043238674165319444700563694116606630532157691033260000000000000000000000000000000000000,
  10307802574868969585782101727835377976058343841426008333842775071864933799246183653723850620000000000000000000000000000000000000,
  11225114023185977117221573366333584777226419564382406650628834594453264768265170803612312100000000000000000000000000000000000000,
  12131457662979497407744792448748170736963123311260913909729897680347557298970226728123335140000000000000000000000000000000000000,
  13025947892971542285558583758901790134964735841749607616943625123572119559405060930394162732000000000000000000000000000000000000,
  13907710703718772687954149108004637795180812143119072272739734891365593505955281999912374226000000000000000000000000000000000000,
  14775884527441301768879987520354257169388743114603625409332121949869968747773122209642763288000000000000000000000000000000000000,
  15629621077546002723936865953791925552469979809936949742907562277340183034877994446757899472300000000000000000000000000000000000,
  16468086176145212643104980088210780821167661603798369997906885115944696144152960204721638336500000000000000000000000000000000000,
  17290460568323582439344198366741674811623508565167627027193054069332038994392120668737501715920000000000000000000000000000000000,
  18095940722128116664390751420493031347578744958389888004244195963303767089875772706910226940500000000000000000000000000000000000,
  18883739613374904552941165881543234297111276347424480035830541209927879026370464067358989143892000000000000000000000000000000000,
  19653087494435305865381470245444065555269599491250694365334382163196160005453755094641774066490600000000000000000000000000000000,
  20403232646209432766838851657583770605709699302619548014180639792465298954799928210114192987770900000000000000000000000000000000,
  21133442112527641542672300440969681635329728874514691929000402836363556221054340073075213352917050000000000000000000000000000000,
  21843002416247386313953741304398024765348999823246478824022075286283969300309734140110895397843624000000000000000000000000000000,
  22531220256336272701796970931673962340158935348709416765680916568358822308303586924484344333682707000000000000000000000000000000,
  23197423185254121622488854182727288451154485736086930008437252875410347384042447365781134197425535700000000000000000000000000000,
  23840960265968205962560411902283432144707449092616987445170902796752600414634376003644589692931675790000000000000000000000000000,
  24461202707957052719975023349772890646295732397804463267335052590007851846993551057112070807473170863000000000000000000000000000,
  25057544481579589703764225620923264223838558527928844222771055487187811796458552506762330163898960528200000000000000000000000000,
  25629402910208116075642009862150870926977670020267908013105037877735747305330791324206896171976066847020000000000000000000000000,
  26176219239545676342308741757301885011275131190694937964750745438331226959473247848538004986090778272903000000000000000000000000,
  26697459183570962660384664186336350634655750390011819064005976170326587721193995652544364989571869346943400000000000000000000000,
  27192613446576880136491567802170692266987896012001261208528112892727270273174299266488149409323569977444970000000000000000000000,
  27661198220792388294204155870426455292400358664220200139633127041362728663852058133636756939264914521405229000000000000000000000,
  28102755659101173317648330186994550451418099400205024016459828502472793532341506138317027389480880182844337800000000000000000000,
  28516854322395097990936762864457873259842725483968579158384908743092424271005717308285986462165472432532544420000000000000000000,
  28903089601125203134876228134515265315607868055260986668246483438441942031611210877866417154457037023618916706000000000000000000,
  29261084110638276620119023495640954443084195045348286203408598910126832031751659209107729728630344128887374059330000000000000000,
  29590488059912642511754510678836585172806285071367742692937007289827203258586784738141438235397889383418181864417000000000000000,
  29890979593332830916836806668595827658091414260798968528747546985658466499941017193849213695190712625070319971173600000000000000,
  30162265105169144919068681610479232657102325782705606989026123052424670515821129266128602654752452415746364146317250000000000000,
  30404079526454820016507859818825176605607248310117346203578331714732557033655302785367266165502959086736298625625159200000000000,
  30616186583980448496459443262053192853086023789057784683063872871077323942179985478280371109722528899912429949191928100000000000,
  30798379031152590427713903030559760094970834470370968090508864870137029415634485181387779739474748071720264310082649910000000000,
  30950478850490988234063463470747927382987177766940743710061757147422749434741998772491445488595022526153839145762755051660000000,
  31072337427566516587810170242918034845915436347957387620233163958311285923290466726527484457243759915303301556597921484476000000,
  31163835696209906783818321217186653343836368683928071198460311563109478373143526392768896816896522560193447872540388648041630000,
  31224884254849357732376498648098134881802740682184140143769478707750890273027954088507383828420273125191256540660971874964546000,
  31255423453863356947642474386198028787833836726090909943220614599831976561358899063129761796249849314647689620236503207146393640,
  31255423453863356947642474386198028787833836726090909943220614599831976561358899063129761796249849314647689620236503207146393640,
  31224884254849357732376498648098134881802740682184140143769478707750890273027954088507383828420273125191256540660971874964546000,
  31163835696209906783818321217186653343836368683928071198460311563109478373143526392768896816896522560193447872540388648041630000,
  31072337427566516587810170242918034845915436347957387620233163958311285923290466726527484457243759915303301556597921484476000000,
  30950478850490988234063463470747927382987177766940743710061757147422749434741998772491445488595022526153839145762755051660000000,
  30798379031152590427713903030559760094970834470370968090508864870137029415634485181387779739474748071720264310082649910000000000,
  30616186583980448496459443262053192853086023789057784683063872871077323942179985478280371109722528899912429949191928100000000000,
  30404079526454820016507859818825176605607248310117346203578331714732557033655302785367266165502959086736298625625159200000000000,
  30162265105169144919068681610479232657102325782705606989026123052424670515821129266128602654752452415746364146317250000000000000,
  29890979593332830916836806668595827658091414260798968528747546985658466499941017193849213695190712625070319971173600000000000000,
  29590488059912642511754510678836585172806285071367742692937007289827203258586784738141438235397889383418181864417000000000000000,
  29261084110638276620119023495640954443084195045348286203408598910126832031751659209107729728630344128887374059330000000000000000,
  28903089601125203134876228134515265315607868055260986668246483438441942031611210877866417154457037023618916706000000000000000000,
  28516854322395097990936762864457873259842725483968579158384908743092424271005717308285986462165472432532544420000000000000000000,
  28102755659101173317648330186994550451418099400205024016459828502472793532341506138317027389480880182844337800000000000000000000,
  27661198220792388294204155870426455292400358664220200139633127041362728663852058133636756939264914521405229000000000000000000000,
  27192613446576880136491567802170692266987896012001261208528112892727270273174299266488149409323569977444970000000000000000000000,
  26697459183570962660384664186336350634655750390011819064005976170326587721193995652544364989571869346943400000000000000000000000,
  26176219239545676342308741757301885011275131190694937964750745438331226959473247848538004986090778272903000000000000000000000000,
  25629402910208116075642009862150870926977670020267908013105037877735747305330791324206896171976066847020000000000000000000000000,
  25057544481579589703764225620923264223838558527928844222771055487187811796458552506762330163898960528200000000000000000000000000,
  24461202707957052719975023349772890646295732397804463267335052590007851846993551057112070807473170863000000000000000000000000000,
  23840960265968205962560411902283432144707449092616987445170902796752600414634376003644589692931675790000000000000000000000000000,
  23197423185254121622488854182727288451154485736086930008437252875410347384042447365781134197425535700000000000000000000000000000,
  22531220256336272701796970931673962340158935348709416765680916568358822308303586924484344333682707000000000000000000000000000000,
  21843002416247386313953741304398024765348999823246478824022075286283969300309734140110895397843624000000000000000000000000000000,
  21133442112527641542672300440969681635329728874514691929000402836363556221054340073075213352917050000000000000000000000000000000,
  20403232646209432766838851657583770605709699302619548014180639792465298954799928210114192987770900000000000000000000000000000000,
  19653087494435305865381470245444065555269599491250694365334382163196160005453755094641774066490600000000000000000000000000000000,
  18883739613374904552941165881543234297111276347424480035830541209927879026370464067358989143892000000000000000000000000000000000,
  18095940722128116664390751420493031347578744958389888004244195963303767089875772706910226940500000000000000000000000000000000000,
  17290460568323582439344198366741674811623508565167627027193054069332038994392120668737501715920000000000000000000000000000000000,
  16468086176145212643104980088210780821167661603798369997906885115944696144152960204721638336500000000000000000000000000000000000,
  15629621077546002723936865953791925552469979809936949742907562277340183034877994446757899472300000000000000000000000000000000000,
  14775884527441301768879987520354257169388743114603625409332121949869968747773122209642763288000000000000000000000000000000000000,
  13907710703718772687954149108004637795180812143119072272739734891365593505955281999912374226000000000000000000000000000000000000,
  13025947892971542285558583758901790134964735841749607616943625123572119559405060930394162732000000000000000000000000000000000000,
  12131457662979497407744792448748170736963123311260913909729897680347557298970226728123335140000000000000000000000000000000000000,
  11225114023185977117221573366333584777226419564382406650628834594453264768265170803612312100000000000000000000000000000000000000,
  10307802574868969585782101727835377976058343841426008333842775071864933799246183653723850620000000000000000000000000000000000000,
  9380419653694457951418237660812118730787043238674165319444700563694116606630532157691033260000000000000000000000000000000000000,
  8443871469668971402620834902301001934644459884101413435432633219294674997559154063545872800000000000000000000000000000000000000,
  7499073255464711578828744016397783163583478948145093420303868488370148536738955702470101000000000000000000000000000000000000000,
  6546948450845322764152103331495263699938363366476002001722817425086406363422075678973396300000000000000000000000000000000000000,
  5588428003865515157211946348439210731318694008077152644014249922242465918842749262878309000000000000000000000000000000000000000,
  4624450063422119351095789082978476650352495294894529361926377047091256462864416733472735500000000000000000000000000000000000000,
  3655961201326375182342458727525195699206567405152203821841102959630709018082824274831168400000000000000000000000000000000000000,
  2683925371553482419439590429001120081931114950998276269064431823948822648373602275678181160000000000000000000000000000000000000,
  1709392653518105239529358371491195243731385491462579803600748923408444595204218696051161490000000000000000000000000000000000000,
  734634490505671730406320658330336390670473562482907839287269508983350629830805913215465244000000000000000000000000000000000000]

/-- `case 101` (Util/Gauss_Legendre_Nodes_and_Weights.hpp:25464-25932), `nodes`. -/
def nodes101 : List Int := [
  -999719339529770275768398605056361111120391898353362470592671928349305102536448488028621368623650130693768808805867373678109541540,
  -998521511989757508253895241260837200011108993367802157820335887753729749710419869929948411916299490639371561495064018438158178850,
  -996367732790944138905167301837743391424626741587127183647632847943083965961023934536710503681078412168215594444602484331444923210,
  -993259586187867438580741844242591650919168535658869689157243817481000596205891588331555032528653805108123859652630836892013461070,
  -989199990875033603767660922963491139475925732493585842762221987187684309569288638398489178688067711155606136211086746551764547790,
  -984192821630220635064465398829237870915586710326209610164317676981613455799215856637986230933274129739266542268590545726659721780,
  -978242870286443465336125321115052775724223532726121640094490534521873717082409571385111189498434384072418763415183012820793655990,
  -971355834558171220182708415620798622659289560982974757426207270501077994531789537171807595861054493589232195327692867172145635490,
  -963538310833134435589923319956369444222185914342626111877354840028617391973901855654298582262146054756406895645119773077145438920,
  -954797787271191344073716092974060815580107984474351669603672703579175380704031165408003793716858129022238795173061709447772913500,
  -945142636404648453880064715933175167294239922522148749721958673464162453292407279644603393217994178432655925659713041346257026260,
  -934582107018945690466337060756935901333747173457545424838829052515118459246463618776803045858325842989957657783644518095815516060,
  -923126315245613799010999469552011173721304532584587873324581330172266276608586340481156682270834262086388829245442850926220198320,
  -910786234847393747181099690244113103371602026617589811870784788484048675838737684340142534240866345744460537713823352055096069010,
  -897573686692878581314716711071599838917983042488431025508054754791903418857711035058817822572284037554608123415256142037247272650,
  -883501327425360660775526250924405470653596689211643951071031779173786846672885447355057994790049137903445275683523879418512014970,
  -868582637334130138884569486580425649082895766220990257120458657310105827199916325696960949720781041647689327674225210569134010540,
  -852831907438510356568202546905242291643468642555951506519918441872667158654852851370775681216968011092428397527352233653151562520,
  -836264225796288437769520268139724032261275674440051318329205943789195306850256137248981123696618730125367867281010078775215688390,
  -818895463049257659150623728337223276640837075164816371575043826813117366009795170599920853068934309795231518545544935025419297630,
  -800742257219486880919327978553588107695315832467512986245304355771607541478517295824716749553371459402227579707387680577407277020,
  -781821997770742990210275980522509292827878114586185416519570391002631242373245835120855516567369384593908449134784062735948102810,
  -762152808950249417701517395784067529351599574853990486416785111852765647335633158257872421550577574041191955433965868763834792230,
  -741753532426684540130867437397466809542367148833862475796990982119957949070161098702880380313801147345355896691215690393807045380,
  -720643709241016938662759594081190585752009218171846804977504503947235448304703508316097148734311847400176373925309980272226917490,
  -698843561087444535715260466554411079160275059221098918821068104313618920360944909936818357487221908744897520977858887936591565300,
  -676373970942353834409166357901023479788884452718683833939907209370687934699634851978993529300417155795464976938254204891941295260,
  -653256463059844884440857961078637118040611447014385931667797330246190501481063786421198168388984220637320557407438300842921417500,
  -629513182352977581445605726737575693803281831991894926960029201241234822760923523408605771212546881853409069362193529061803437270,
  -605166873180485487431577348228605212581338988670011945141739488140955100039094916978314316995978172880711257088784175564970220130,
  -580240857559274341122044419979888288619608862682889494228704033329045225150952297823255594021098435914268122318863309264906992880,
  -554759012823573494441128574777659945807956656225004693950584011666489365835371172611862352615278617212558964732209575531345018670,
  -528745748752139285835033717767416723444180263834564864451225353825564797952007583378973997641341233465231682835589141258172660850,
  -502225984185419431041204631995422606148618180159468442663205521643833886481814245348193003742823019335913640502259802559554668410,
  -475225123155076452683148592837094962595163423154821942617641946242094269741993179270124544031550443221775225705954991058753194440,
  -447769030548735556186779291563596250513365796088428245436700268206911362201834966236761705979492118809267165160497899671765947700,
  -419884007333267772372414684965323632720817969422412367687706737379649945529651209110486884521089153419075282745665729171635487590,
  -391596765360342220007283190958060353100494343646222160964177325455747006327778563554735555615756405220857085083000434779077718460,
  -362934401778381603279213592238702374060963488090846857854839274537736373792310018651651870111677288633406643120106012102710996080,
  -333924373075432175924291188129665175067184595694803675997020561953706175330968985505784129491332508624782600464371218311045841260,
  -304594468777813021296153415429142007103936366119378685921700329131055129775174356923016743640062297711077760402068315721581725570,
  -274972784829739282233078734125518376337933521146693851169874934466490768799135359616749510108351048919742330266810113533445683520,
  -245087696679419613844730430582979833055001441191789998000598562951561143950719416063239135006585953995429104199234581154704441180,
  -214967832097409336141902953940576302772558731497783858373733384645773261479021386632671847019984894573440997208571622957400895650,
  -184642043753257264319747071638937089716677433442586975583923847215033934414508167686936140810830598332469449802131473821596256380,
  -154139381576715748189308744024722446449791318256142028145274733761229236724880265528698762240948934849878214074081200656831139990,
  -123489064929989837977726765603174485455426975884091795966936189946347896178529195954981493482680559846107306112654751055276912450,
  -92720454617682514568615426389346176076629731398667849987220653341758281842487329882773261468723765028499782648845375252566953516,
  -61863024761248405413764051506919326875363937843219595462355246051865723155686091351903328161200855991661518843968054543018875435,
  -30946334564898204311239073778627790175560019257646215481528146785335188604250729158336289315451420074220469846198271245737189797,
  0,
  30946334564898204311239073778627790175560019257646215481528146785335188604250729158336289315451420074220469846198271245737189797,
  61863024761248405413764051506919326875363937843219595462355246051865723155686091351903328161200855991661518843968054543018875435,
  92720454617682514568615426389346176076629731398667849987220653341758281842487329882773261468723765028499782648845375252566953516,
  123489064929989837977726765603174485455426975884091795966936189946347896178529195954981493482680559846107306112654751055276912450,
  154139381576715748189308744024722446449791318256142028145274733761229236724880265528698762240948934849878214074081200656831139990,
  184642043753257264319747071638937089716677433442586975583923847215033934414508167686936140810830598332469449802131473821596256380,
  214967832097409336141902953940576302772558731497783858373733384645773261479021386632671847019984894573440997208571622957400895650,
  245087696679419613844730430582979833055001441191789998000598562951561143950719416063239135006585953995429104199234581154704441180,
  274972784829739282233078734125518376337933521146693851169874934466490768799135359616749510108351048919742330266810113533445683520,
  304594468777813021296153415429142007103936366119378685921700329131055129775174356923016743640062297711077760402068315721581725570,
  333924373075432175924291188129665175067184595694803675997020561953706175330968985505784129491332508624782600464371218311045841260,
  362934401778381603279213592238702374060963488090846857854839274537736373792310018651651870111677288633406643120106012102710996080,
  391596765360342220007283190958060353100494343646222160964177325455747006327778563554735555615756405220857085083000434779077718460,
  419884007333267772372414684965323632720817969422412367687706737379649945529651209110486884521089153419075282745665729171635487590,
  447769030548735556186779291563596250513365796088428245436700268206911362201834966236761705979492118809267165160497899671765947700,
  475225123155076452683148592837094962595163423154821942617641946242094269741993179270124544031550443221775225705954991058753194440,
  502225984185419431041204631995422606148618180159468442663205521643833886481814245348193003742823019335913640502259802559554668410,
  528745748752139285835033717767416723444180263834564864451225353825564797952007583378973997641341233465231682835589141258172660850,
  554759012823573494441128574777659945807956656225004693950584011666489365835371172611862352615278617212558964732209575531345018670,
  580240857559274341122044419979888288619608862682889494228704033329045225150952297823255594021098435914268122318863309264906992880,
  605166873180485487431577348228605212581338988670011945141739488140955100039094916978314316995978172880711257088784175564970220130,
  629513182352977581445605726737575693803281831991894926960029201241234822760923523408605771212546881853409069362193529061803437270,
  653256463059844884440857961078637118040611447014385931667797330246190501481063786421198168388984220637320557407438300842921417500,
  676373970942353834409166357901023479788884452718683833939907209370687934699634851978993529300417155795464976938254204891941295260,
  698843561087444535715260466554411079160275059221098918821068104313618920360944909936818357487221908744897520977858887936591565300,
  720643709241016938662759594081190585752009218171846804977504503947235448304703508316097148734311847400176373925309980272226917490,
  741753532426684540130867437397466809542367148833862475796990982119957949070161098702880380313801147345355896691215690393807045380,
  762152808950249417701517395784067529351599574853990486416785111852765647335633158257872421550577574041191955433965868763834792230,
  781821997770742990210275980522509292827878114586185416519570391002631242373245835120855516567369384593908449134784062735948102810,
  800742257219486880919327978553588107695315832467512986245304355771607541478517295824716749553371459402227579707387680577407277020,
  818895463049257659150623728337223276640837075164816371575043826813117366009795170599920853068934309795231518545544935025419297630,
  836264225796288437769520268139724032261275674440051318329205943789195306850256137248981123696618730125367867281010078775215688390,
  852831907438510356568202546905242291643468642555951506519918441872667158654852851370775681216968011092428397527352233653151562520,
  868582637334130138884569486580425649082895766220990257120458657310105827199916325696960949720781041647689327674225210569134010540,
  883501327425360660775526250924405470653596689211643951071031779173786846672885447355057994790049137903445275683523879418512014970,
  897573686692878581314716711071599838917983042488431025508054754791903418857711035058817822572284037554608123415256142037247272650,
  910786234847393747181099690244113103371602026617589811870784788484048675838737684340142534240866345744460537713823352055096069010,
  923126315245613799010999469552011173721304532584587873324581330172266276608586340481156682270834262086388829245442850926220198320,
  934582107018945690466337060756935901333747173457545424838829052515118459246463618776803045858325842989957657783644518095815516060,
  945142636404648453880064715933175167294239922522148749721958673464162453292407279644603393217994178432655925659713041346257026260,
  954797787271191344073716092974060815580107984474351669603672703579175380704031165408003793716858129022238795173061709447772913500,
  963538310833134435589923319956369444222185914342626111877354840028617391973901855654298582262146054756406895645119773077145438920,
  971355834558171220182708415620798622659289560982974757426207270501077994531789537171807595861054493589232195327692867172145635490,
  978242870286443465336125321115052775724223532726121640094490534521873717082409571385111189498434384072418763415183012820793655990,
  984192821630220635064465398829237870915586710326209610164317676981613455799215856637986230933274129739266542268590545726659721780,
  989199990875033603767660922963491139475925732493585842762221987187684309569288638398489178688067711155606136211086746551764547790,
  993259586187867438580741844242591650919168535658869689157243817481000596205891588331555032528653805108123859652630836892013461070,
  996367732790944138905167301837743391424626741587127183647632847943083965961023934536710503681078412168215594444602484331444923210,
  998521511989757508253895241260837200011108993367802157820335887753729749710419869929948411916299490639371561495064018438158178850,
  999719339529770275768398605056361111120391898353362470592671928349305102536448488028621368623650130693768808805867373678109541540]

/-- `case 101` (Util/Gauss_Legendre_Nodes_and_Weights.hpp:25464-25932), `weights`. -/
def weights101 : List Nat := [
  720231706401863701765546133087639624182568561269659548578088826307573241610177509132395919000000000000000000000000000000000000,
  1675892760499028879910831677539026928531686690603759906011865485813914166438056063069078610000000000000000000000000000000000000,
  2631364873182343223477090591101504515591957877681212166835006073151675239316228306104714800000000000000000000000000000000000000,
  3584439398802248760882611224335601542317290033362950907261689877257519421755454040956826300000000000000000000000000000000000000,
  4534105010093023412934730903925563950315359865021092139007947231818582964260182578730295300000000000000000000000000000000000000,
  5479434683782081566958920126351151493111650615868445112891215174401098181053310601561627700000000000000000000000000000000000000,
  6419518270177545295035573193423992433277795358678135104537691221581370577541457963548685900000000000000000000000000000000000000,
  7353453674791278036869501332329728392001971092995741088447174455628668161711884421843228500000000000000000000000000000000000000,
  8280345625723361974726741299819782580984114158094749563427418208636968465680657048810571600000000000000000000000000000000000000,
  9199305940921433811006227021376841781448239836810017473996099169781447128681665456288711100000000000000000000000000000000000000,
  10109454179512086575918751160583271167333762297169669106600167132438599372077579546904888200000000000000000000000000000000000000,
  11009918408059970117385283646298745308760836722724395052839785350205763942346432109355512400000000000000000000000000000000000000,
  11899836002711939318099734793242585658818993650707585026749164214307022185478361552217674610000000000000000000000000000000000000,
  12778354460089953350614509472491422595004956919779685411205477947700543172071315802599939070000000000000000000000000000000000000,
  13644632206221902258218880666263726852488014326439047838248201759339261236161363277541260465000000000000000000000000000000000000,
  14497839398638299441110258990610761373666538712903935240101840299061921170352225855738486250000000000000000000000000000000000000,
  15337158719045695126149821364882518507755105122184454391213644743563082874535126806732054820900000000000000000000000000000000000,
  16161786154955938416410594193078264191560777927435718782979839715395286204867846586477696154800000000000000000000000000000000000,
  16970931769092475947367280620408344578699426584450898037678537457721003927783543193130549368400000000000000000000000000000000000,
  17763820455611814625269202560426218622792455580144477607915733304652130437390529918216415256540000000000000000000000000000000000,
  18539692682293359036409565493977719065117698008334986153172559779312817974267182311310559277718000000000000000000000000000000000,
  19297805217917631695904723915319498163598920191763640166854515579389868641125630634698248735353000000000000000000000000000000000,
  20037431844095918019306960775151885728605057470591209226382156015553828365310380021290571285424900000000000000000000000000000000,
  20757864050845393718625755909419031842778432315596786161336236641275860231958090039226534320287800000000000000000000000000000000,
  21458411715228645545182641372467583793660114608057253336291238631362259158190256265541780510576890000000000000000000000000000000,
  22138403762398209654070353412363304325941226099276655433120271436038371627190165612471137614434720000000000000000000000000000000,
  22797188808406933829650910198035592559726552406883167383530334341167481566837445646454815258024434600000000000000000000000000000,
  23434135784164498398848886980106207578616955541714167432839313199649925227167607880326591502376647800000000000000000000000000000,
  24048634539939794768675502530837386989349720894573955668714122331618818889708683072578149184207121100000000000000000000000000000,
  24640096429828335839565866975512526422231870458383201837667866884881878345762738549827403886374828475000000000000000000000000000,
  25207954875623614818604635086717362682610468230831993138074208385433693112406292479005292796120387083600000000000000000000000000,
  25751665909551424805387876630207400100804180421369750447024981822349668502598927482083748593119983424660000000000000000000000000,
  26270708695346646776957839477635002323824738376212161918578845188916115290605126914206302244239580445218000000000000000000000000,
  26764586027172929470119577186277231689102313847253969837201526940235918509424846541742790179463128889587300000000000000000000000,
  27232824805907027172888915979963628284632432221526189113972253697685285310656444038192117515630039920863020000000000000000000000,
  27674976492331327027974035335298807381731260365655137054630431409511289200561918476372807324332258232673281000000000000000000000,
  28090617536800276361985196967494418867255062153446737062181894478267915768481464963632601844529406406977722440000000000000000000,
  28479349784968998924568866259875390288421254193155374543682050642814255714503037753679548271330064321820891424000000000000000000,
  28840800859195350103507543879041230353974906661040028249494998963995377725937197460496942033720197437229097686000000000000000000,
  29174624515249986577591896359874192062462788042773856722865877439119902473105948887049416061682861801954622152640000000000000000,
  29480500973992695478801859329234388784217986998632650074068830439517456805275539956185871336173125168213161995247000000000000000,
  29758137227697220919587340742740807625394139477566383713295858551417020878323511268213908593260968978093193560127350000000000000,
  30007267320731119867465429532363410600274513061054926063769344315518783125748701276626757115002111564999028922869795000000000000,
  30227652604321752364214102435385287262546624211275406828188559409467095845562433827987679483576722592901902140789661600000000000,
  30419081965164340038997025334721694875785769808162409292727375120093958606476975226021550635159515322853644998104686086000000000,
  30581372027653088395157921357128804213158563861168187143453999075698818589012111384133806015334578287011117190404097797600000000,
  30714367329541638763448019460779733752642729873557955911262791143477309418270369988383457557645489692549305769403377060860000000,
  30817940470864571133004855435877013402803583946755361902561429112878103405027650538726294097719014795122392333251248870131600000,
  30891992235977295083184256558776941271127825188959131432566945775172587565031125182418037161633575799982672278435003205305620000,
  30936451688597418336509630795445628681037992033248311166514080490812476920940725542953090245079754786281220849003419781237057000,
  30951276239756546467379834640788393855841634193706852154897030217204850266836144278403154261172577337021423673489037832166630892,
  30936451688597418336509630795445628681037992033248311166514080490812476920940725542953090245079754786281220849003419781237057000,
  30891992235977295083184256558776941271127825188959131432566945775172587565031125182418037161633575799982672278435003205305620000,
  30817940470864571133004855435877013402803583946755361902561429112878103405027650538726294097719014795122392333251248870131600000,
  30714367329541638763448019460779733752642729873557955911262791143477309418270369988383457557645489692549305769403377060860000000,
  30581372027653088395157921357128804213158563861168187143453999075698818589012111384133806015334578287011117190404097797600000000,
  30419081965164340038997025334721694875785769808162409292727375120093958606476975226021550635159515322853644998104686086000000000,
  30227652604321752364214102435385287262546624211275406828188559409467095845562433827987679483576722592901902140789661600000000000,
  30007267320731119867465429532363410600274513061054926063769344315518783125748701276626757115002111564999028922869795000000000000,
  29758137227697220919587340742740807625394139477566383713295858551417020878323511268213908593260968978093193560127350000000000000,
  29480500973992695478801859329234388784217986998632650074068830439517456805275539956185871336173125168213161995247000000000000000,
  29174624515249986577591896359874192062462788042773856722865877439119902473105948887049416061682861801954622152640000000000000000,
  28840800859195350103507543879041230353974906661040028249494998963995377725937197460496942033720197437229097686000000000000000000,
  28479349784968998924568866259875390288421254193155374543682050642814255714503037753679548271330064321820891424000000000000000000,
  28090617536800276361985196967494418867255062153446737062181894478267915768481464963632601844529406406977722440000000000000000000,
  27674976492331327027974035335298807381731260365655137054630431409511289200561918476372807324332258232673281000000000000000000000,
  27232824805907027172888915979963628284632432221526189113972253697685285310656444038192117515630039920863020000000000000000000000,
  26764586027172929470119577186277231689102313847253969837201526940235918509424846541742790179463128889587300000000000000000000000,
  26270708695346646776957839477635002323824738376212161918578845188916115290605126914206302244239580445218000000000000000000000000,
  25751665909551424805387876630207400100804180421369750447024981822349668502598927482083748593119983424660000000000000000000000000,
  25207954875623614818604635086717362682610468230831993138074208385433693112406292479005292796120387083600000000000000000000000000,
  24640096429828335839565866975512526422231870458383201837667866884881878345762738549827403886374828475000000000000000000000000000,
  24048634539939794768675502530837386989349720894573955668714122331618818889708683072578149184207121100000000000000000000000000000,
  23434135784164498398848886980106207578616955541714167432839313199649925227167607880326591502376647800000000000000000000000000000,
  22797188808406933829650910198035592559726552406883167383530334341167481566837445646454815258024434600000000000000000000000000000,
  22138403762398209654070353412363304325941226099276655433120271436038371627190165612471137614434720000000000000000000000000000000,
  21458411715228645545182641372467583793660114608057253336291238631362259158190256265541780510576890000000000000000000000000000000,
  20757864050845393718625755909419031842778432315596786161336236641275860231958090039226534320287800000000000000000000000000000000,
  20037431844095918019306960775151885728605057470591209226382156015553828365310380021290571285424900000000000000000000000000000000,
  19297805217917631695904723915319498163598920191763640166854515579389868641125630634698248735353000000000000000000000000000000000,
  18539692682293359036409565493977719065117698008334986153172559779312817974267182311310559277718000000000000000000000000000000000,
  17763820455611814625269202560426218622792455580144477607915733304652130437390529918216415256540000000000000000000000000000000000,
  16970931769092475947367280620408344578699426584450898037678537457721003927783543193130549368400000000000000000000000000000000000,
  16161786154955938416410594193078264191560777927435718782979839715395286204867846586477696154800000000000000000000000000000000000,
  15337158719045695126149821364882518507755105122184454391213644743563082874535126806732054820900000000000000000000000000000000000,
  14497839398638299441110258990610761373666538712903935240101840299061921170352225855738486250000000000000000000000000000000000000,
  13644632206221902258218880666263726852488014326439047838248201759339261236161363277541260465000000000000000000000000000000000000,
  12778354460089953350614509472491422595004956919779685411205477947700543172071315802599939070000000000000000000000000000000000000,
  11899836002711939318099734793242585658818993650707585026749164214307022185478361552217674610000000000000000000000000000000000000,
  11009918408059970117385283646298745308760836722724395052839785350205763942346432109355512400000000000000000000000000000000000000,
  10109454179512086575918751160583271167333762297169669106600167132438599372077579546904888200000000000000000000000000000000000000,
  9199305940921433811006227021376841781448239836810017473996099169781447128681665456288711100000000000000000000000000000000000000,
  8280345625723361974726741299819782580984114158094749563427418208636968465680657048810571600000000000000000000000000000000000000,
  7353453674791278036869501332329728392001971092995741088447174455628668161711884421843228500000000000000000000000000000000000000,
  6419518270177545295035573193423992433277795358678135104537691221581370577541457963548685900000000000000000000000000000000000000,
  5479434683782081566958920126351151493111650615868445112891215174401098181053310601561627700000000000000000000000000000000000000,
  4534105010093023412934730903925563950315359865021092139007947231818582964260182578730295300000000000000000000000000000000000000,
  3584439398802248760882611224335601542317290033362950907261689877257519421755454040956826300000000000000000000000000000000000000,
  2631364873182343223477090591101504515591957877681212166835006073151675239316228306104714800000000000000000000000000000000000000,
  1675892760499028879910831677539026928531686690603759906011865485813914166438056063069078610000000000000000000000000000000000000,
  720231706401863701765546133087639624182568561269659548578088826307573241610177509132395919000000000000000000000000000000000000]

/-- `case 102` (Util/Gauss_Legendre_Nodes_and_Weights.hpp:25934-26402), `nodes`. -/
def nodes102 : List Int := [
  -999724788824757584049721307536866588051993271530371345974132291073927435213302939741173315157665106735977446520930121851474871000,
  -998550212645212665298458888988769685801079183954812131481348456658808398332127654690452779289012506331421001099697781075237423290,
  -996438218115862869659094158776484487512292819800029794669455944210804371683247415849153469135999420745769595653861421284264792300,
  -993390319485722202009559354804261605803548454049933816249122621083404961429758944962192601296051905907742521405921544671467606990,
  -989409322189570931781209884383785270168159552993400618641071194754164844684848000326163234608704808806351022409227791600477694630,
  -984498951945387236698119090253758796514068751783150688585032626444749257525442102709777050348564039347872543062032343990553154270,
  -978663816624404607978549739537497608238217891623236471390631520465924639224398496284786526283401386448930346260569648327559761560,
  -971909395467173489841056235026722773098239420184621508716256583666860203455752338755461129112423256423831941709465708030234263230,
  -964242032220576721229620521197848558475951659503574837325980449904574976924804270258321406616019387571170877395189487096274605600,
  -955668928608015375673766010332702288672416231395456315538769232415895292711803648269633509027256468221741968558360709135842034990,
  -946198137342464995670134184566784573102681660291164087853538580259190343802934058155434937404120056105807562458441331567482026640,
  -935838554465221983988501048496828091032839416583286071550079653944625818726275047423024145564519245363892592270309814307903872980,
  -924599910943141594570569087702063448387377362867589804771767379004793580112590707296816007268089595499097042579444392265429858860,
  -912492763504174951995861380616353012160990619149342279065691626819201711057801243914298005283303336942903705994637446553462658350,
  -899528484708100246304064328648785738848564783874949878464521802942597711059674716687429024239700888844427287640451409675226094530,
  -885719252256480435470579708856048560473556517728759134401896754857110319186969500425307985080579389438084763266728443194341449840,
  -871078037549331156171472366360095762067129208247009215215811494100255311591146749614300602865496354237688775408244245628804749040,
  -855618593497941105273679087388626996227557513826712997547702674429321463001225237770663184640952020888977435747469151886441645600,
  -839355441604592312920505972708601422258932153546743429343182579278662898488036957735950113399217123955051021527448279327995806210,
  -822303858320925519406944705169690804340063258723154865197366335753743028059040551148914495830055823211793062828306253000989197020,
  -804479860697538108308369923845051237802854170626284815309962187140798423441010573114672373898864072582683396056413927296390534610,
  -785900191338158918251648807991213482543618732861387037000962054228824882914029640621787106973295143418582129438577728664731958280,
  -766582302672449628702892162308796303908511635457545143321706952951426516257342437204114479999580244267842513421712502908053150390,
  -746544340562153202950817168430554695199639944527194363947328067129246262461704247743540422202360440433539272318828160700131873020,
  -725805127255954712872666085372878856028611495730158135315529344688130520363021041500569749122419202914362260421883474125016824010,
  -704384143709043213001564237429852638146373405255521706512446682658827256431745177265723850958564234198856480627084305756796078650,
  -682301511283967429293076505770145573391280731673794866275541072320963110466656036535089538676997979601153605089837599103304954330,
  -659577972849963951865948039346940771481318265477162004978277427693819754359794809755667021593408943996618204653102158227140726720,
  -636234873298504789668052986264223639303383663855646031410307127462783195204043787611814728766432569245447174693409479479536213130,
  -612294139493361611070756653338530550276790199818908325275927715462676991999730036971219981601470560212430270518448345760190222390,
  -587778259674016602774792442569437378988110118327103611495330974357235672620917801479916637065920163723732555379241976691699805700,
  -562710262331764357641432580170503004659059294686655573141515460844529742947942831652391656600449701803717197448900656241943710660,
  -537113694578345212773295290986923261202749151090102150822372787021873215332687827149247973138868109782583289358453988936531125500,
  -511012600027427631397853530387045544947026175298706539381694439950312550049465073104121682490271630520934289460112339608067357630,
  -484431496209715170371521667396345795569242434728527236143469653808940835144381865811694795942402423025613916766910295691974921390,
  -457395351542891911298137966951114920467132743453152008802646280553025468138766597705563314559640728566273523304695587242698798820,
  -429929561878038574140681950003769736487432054764095517837732891363834071786758192864506999619914199891737414220691149550894457280,
  -402059926644549504453563288678260582077445842954742406998668092271315729056654996789598617043175697998180697448832516588186864370,
  -373812624615957968783430040737357155655049053820071964339120426006651599930060209894176714525610903881520190919848062236054148770,
  -345214189319433362605360247167182405039674535342708392110424615339029696826922097145062038416111640599420711541812846005841083720,
  -316291484112048703619591951438853871457948124402579881051732923201583484368641689166502518324057929801188784509472224556097924300,
  -287071676947229840748047495928863918435910882379295200948755078094372007682683603540439875197607864525259381450984832288323840480,
  -257582214855088865199730800920261264954128944162528482750795668154179536030898617426770351384517499325289424876254288820650841430,
  -227850798160612993690990334647340678258270169566958644061436069459032163158507914627395716316761735691290678833404071246595995400,
  -197905354463926454720923518492449893557865002431926161510686334339463570948164066267662731161434002298800094223801323882859343430,
  -167774012407066416788907354535352289984416203365208445535269242828143282918546028014713035403327125988074844838889757141979625590,
  -137485075251914543690210021224322607643059947168159892505646505025864863669643416813620449543613001087009512779484615573950669450,
  -107066994294103158932742848760945170462378443689254867203368492098664951552064594386069810207753705760665411594692560710452308770,
  -76548342137869082829202888880448280751058103022549912004507843640213104172837390796315038013827777756146838006251448245299583042,
  -45957785856958827634776360898571060826960715372686730307404388083986487769235635472034395796171123412049604548859554601797459885,
  -15324060066795875847058294335673694504731126565798112753335883624547002092005327109513399379620237888135970166419302849589542796,
  15324060066795875847058294335673694504731126565798112753335883624547002092005327109513399379620237888135970166419302849589542796,
  45957785856958827634776360898571060826960715372686730307404388083986487769235635472034395796171123412049604548859554601797459885,
  76548342137869082829202888880448280751058103022549912004507843640213104172837390796315038013827777756146838006251448245299583042,
  107066994294103158932742848760945170462378443689254867203368492098664951552064594386069810207753705760665411594692560710452308770,
  137485075251914543690210021224322607643059947168159892505646505025864863669643416813620449543613001087009512779484615573950669450,
  167774012407066416788907354535352289984416203365208445535269242828143282918546028014713035403327125988074844838889757141979625590,
  197905354463926454720923518492449893557865002431926161510686334339463570948164066267662731161434002298800094223801323882859343430,
  227850798160612993690990334647340678258270169566958644061436069459032163158507914627395716316761735691290678833404071246595995400,
  257582214855088865199730800920261264954128944162528482750795668154179536030898617426770351384517499325289424876254288820650841430,
  287071676947229840748047495928863918435910882379295200948755078094372007682683603540439875197607864525259381450984832288323840480,
  316291484112048703619591951438853871457948124402579881051732923201583484368641689166502518324057929801188784509472224556097924300,
  345214189319433362605360247167182405039674535342708392110424615339029696826922097145062038416111640599420711541812846005841083720,
  373812624615957968783430040737357155655049053820071964339120426006651599930060209894176714525610903881520190919848062236054148770,
  402059926644549504453563288678260582077445842954742406998668092271315729056654996789598617043175697998180697448832516588186864370,
  429929561878038574140681950003769736487432054764095517837732891363834071786758192864506999619914199891737414220691149550894457280,
  457395351542891911298137966951114920467132743453152008802646280553025468138766597705563314559640728566273523304695587242698798820,
  484431496209715170371521667396345795569242434728527236143469653808940835144381865811694795942402423025613916766910295691974921390,
  511012600027427631397853530387045544947026175298706539381694439950312550049465073104121682490271630520934289460112339608067357630,
  537113694578345212773295290986923261202749151090102150822372787021873215332687827149247973138868109782583289358453988936531125500,
  562710262331764357641432580170503004659059294686655573141515460844529742947942831652391656600449701803717197448900656241943710660,
  587778259674016602774792442569437378988110118327103611495330974357235672620917801479916637065920163723732555379241976691699805700,
  612294139493361611070756653338530550276790199818908325275927715462676991999730036971219981601470560212430270518448345760190222390,
  636234873298504789668052986264223639303383663855646031410307127462783195204043787611814728766432569245447174693409479479536213130,
  659577972849963951865948039346940771481318265477162004978277427693819754359794809755667021593408943996618204653102158227140726720,
  682301511283967429293076505770145573391280731673794866275541072320963110466656036535089538676997979601153605089837599103304954330,
  704384143709043213001564237429852638146373405255521706512446682658827256431745177265723850958564234198856480627084305756796078650,
  725805127255954712872666085372878856028611495730158135315529344688130520363021041500569749122419202914362260421883474125016824010,
  746544340562153202950817168430554695199639944527194363947328067129246262461704247743540422202360440433539272318828160700131873020,
  766582302672449628702892162308796303908511635457545143321706952951426516257342437204114479999580244267842513421712502908053150390,
  785900191338158918251648807991213482543618732861387037000962054228824882914029640621787106973295143418582129438577728664731958280,
  804479860697538108308369923845051237802854170626284815309962187140798423441010573114672373898864072582683396056413927296390534610,
  822303858320925519406944705169690804340063258723154865197366335753743028059040551148914495830055823211793062828306253000989197020,
  839355441604592312920505972708601422258932153546743429343182579278662898488036957735950113399217123955051021527448279327995806210,
  855618593497941105273679087388626996227557513826712997547702674429321463001225237770663184640952020888977435747469151886441645600,
  871078037549331156171472366360095762067129208247009215215811494100255311591146749614300602865496354237688775408244245628804749040,
  885719252256480435470579708856048560473556517728759134401896754857110319186969500425307985080579389438084763266728443194341449840,
  899528484708100246304064328648785738848564783874949878464521802942597711059674716687429024239700888844427287640451409675226094530,
  912492763504174951995861380616353012160990619149342279065691626819201711057801243914298005283303336942903705994637446553462658350,
  924599910943141594570569087702063448387377362867589804771767379004793580112590707296816007268089595499097042579444392265429858860,
  935838554465221983988501048496828091032839416583286071550079653944625818726275047423024145564519245363892592270309814307903872980,
  946198137342464995670134184566784573102681660291164087853538580259190343802934058155434937404120056105807562458441331567482026640,
  955668928608015375673766010332702288672416231395456315538769232415895292711803648269633509027256468221741968558360709135842034990,
  964242032220576721229620521197848558475951659503574837325980449904574976924804270258321406616019387571170877395189487096274605600,
  971909395467173489841056235026722773098239420184621508716256583666860203455752338755461129112423256423831941709465708030234263230,
  978663816624404607978549739537497608238217891623236471390631520465924639224398496284786526283401386448930346260569648327559761560,
  984498951945387236698119090253758796514068751783150688585032626444749257525442102709777050348564039347872543062032343990553154270,
  989409322189570931781209884383785270168159552993400618641071194754164844684848000326163234608704808806351022409227791600477694630,
  993390319485722202009559354804261605803548454049933816249122621083404961429758944962192601296051905907742521405921544671467606990,
  996438218115862869659094158776484487512292819800029794669455944210804371683247415849153469135999420745769595653861421284264792300,
  998550212645212665298458888988769685801079183954812131481348456658808398332127654690452779289012506331421001099697781075237423290,
  999724788824757584049721307536866588051993271530371345974132291073927435213302939741173315157665106735977446520930121851474871000]

/-- `case 102` (Util/Gauss_Legendre_Nodes_and_Weights.hpp:25934-26402), `weights`. -/
def weights102 : List Nat := [
  706248351458089058042068327400414996991352846922540662090714132043012254360659327215512490000000000000000000000000000000000000,
  1643367918724939545640445419511897838115909171973910123228033117726301604577374320302645800000000000000000000000000000000000000,
  2580332757889042418480297962537212426635170953122772802493608053885613019787425854502813700000000000000000000000000000000000000,
  3514994494889773029595012588473737961489864864603092494924049647005713677320421525727759200000000000000000000000000000000000000,
  4446378734443178456126396327689135036072550703588473074194621859722001201125302576557263700000000000000000000000000000000000000,
  5373593624399058903960836663796166936438064002651570410836446838805797756894042325259164500000000000000000000000000000000000000,
  6295763701936305382895710262129234992925912073161032236522778536499316024559333957435866900000000000000000000000000000000000000,
  7212021213920525943052843565751401488149639075643393451144055673323866957014157736958596400000000000000000000000000000000000000,
  8121504875995447583117098930203879282541800244761467959410063853899680382935681424748156900000000000000000000000000000000000000,
  9023360102740502810744379276384610597579696779790687550422417815955871953208625506938629100000000000000000000000000000000000000,
  9916739614803640379808314876222962575534430223196040252217288331526293600305480849430230600000000000000000000000000000000000000,
  10800804159136293630706470294812005066060027745748163310228132760446232777221356584950520100000000000000000000000000000000000000,
  11674723264867314999029032653058882725162791499521495277882020267739142700027113138580480320000000000000000000000000000000000000,
  12537676008250568177073518584267870099871404131710314915711027439456433019148915273895568930000000000000000000000000000000000000,
  13388851776226770794001022541469970894928813221670336202370138383279808137538975443666889160000000000000000000000000000000000000,
  14227451023864885329514976832457918654161965810603882993497684217546543645279558787226895463000000000000000000000000000000000000,
  15052686023186206947674468844053353639138533971690392702444979683497474528797683933854535093000000000000000000000000000000000000,
  15863781601822977752738448042628322560775754805232922571458883023142593621975987966292998614800000000000000000000000000000000000,
  16659975870395990922008645075216188339532654981611414339364065829744993526566410288155128278100000000000000000000000000000000000,
  17440520937707480866609935029023640657649816150506581027915772770446623524777688259974741392960000000000000000000000000000000000,
  18204683612957499200301989511334656775179957584527097752277499615904381370660993692314274528900000000000000000000000000000000000,
  18951746094256482560654841493201205458048421994596093800406869374504770628215900539368927421250000000000000000000000000000000000,
  19681006642747873921176087786558972909295913779050318465667722879700893883160155973705332265490000000000000000000000000000000000,
  20391780241683983085674564975567999461859057707457354576003873320439904073541441357464998445273600000000000000000000000000000000,
  21083399239821507465834882046319388817343659616181661970648788092196913746076788497551631466130590000000000000000000000000000000,
  21755213978523246395012019885318357821220327322345945458992581901020678842292305860792827079647481000000000000000000000000000000,
  22406593401971109777729357292794529662994928728866751731426373159425137039618175504876334084512158000000000000000000000000000000,
  23036925649913407232683286070822920555282653686855661559695491299633166560569909767739870425453260600000000000000000000000000000,
  23645618632387087969684534855311939866388239358792080478633208993008548715459246325291686763721448980000000000000000000000000000,
  24232100585873356332279476842816590915510363529311222118710055002838426598887782073416871992736074164000000000000000000000000000,
  24795820610363067566281826867664911538894864658890906545552472030771704689363053223762302864636914069800000000000000000000000000,
  25336249186826599522671605145573338021670955587939261914459488734423102849355834739507084157588006064270000000000000000000000000,
  25852878674601545298734915489637047902524563978881037522567611714312657746047063686265337914692355239036000000000000000000000000,
  26345223788230601794587635843689464955023690240585093177623330372825514491494018579195892454925663323984800000000000000000000000,
  26812822053301447488100929726935601342198979240187060112356129048052538064834626109225570757352047354159830000000000000000000000,
  27255234240860207720296243843889723816054951249966901285736278257550266480157798008194344153894358542443235000000000000000000000,
  27672044779990289706959277043100769849005683467390932137067780462068464745362657077779899253604285767726007800000000000000000000,
  28062862148168920632501661514981875739142390601059920810294831975912622571866621821599417144799403178023967990000000000000000000,
  28427319239034626117217768493534999737489190692670315313735033848629835497846271250940825365455892191134426636000000000000000000,
  28765073707220126774454912493066344034763795210858167618207229415519862370906561576488171548563002294568566702070000000000000000,
  29075808289926689836113776955034465281670941554539975119496259049053667164716700204669746043477703572296092309537000000000000000,
  29359231104937832274204215458244189121310837314040018487209781513478264205676742645728451058299602341278474256606800000000000000,
  29615075924792412077891686169279800091000649142685185865532625810626013678021083114486893495979866148320343516484160000000000000,
  29843102426859545364763142403003179661692475252652849524804027763601098031080215197560025622948054079798271596962856300000000000,
  30043096419080428345634972414280433209171147480892374678781903643539608042662278055885360361577392001386501619890083910000000000,
  30214870041165003973350815557976094460215099335157504709756179746994743010730108942090124375126123643946754116420979037000000000,
  30358261941054472218585097979961916640449130140735306148490072824096434519291714054496261866543198200789287919432165711730000000,
  30473137426483878894499772127355535902340414933108309585965444887663680549227085141768766193973407414497708002513519517132000000,
  30559388591502409138751219932288979960240411412067269870594421420756157656803517867496562922117016549558126361195285652437010000,
  30616934417832536210532157088752699608063242315230902101398789989771694750992639707186224283572286425336241546924661501769737000,
  30645720850972812172015404594613260114196909624766035199551061615985933511658514321475586997850694145713362980451023966042422970,
  30645720850972812172015404594613260114196909624766035199551061615985933511658514321475586997850694145713362980451023966042422970,
  30616934417832536210532157088752699608063242315230902101398789989771694750992639707186224283572286425336241546924661501769737000,
  30559388591502409138751219932288979960240411412067269870594421420756157656803517867496562922117016549558126361195285652437010000,
  30473137426483878894499772127355535902340414933108309585965444887663680549227085141768766193973407414497708002513519517132000000,
  30358261941054472218585097979961916640449130140735306148490072824096434519291714054496261866543198200789287919432165711730000000,
  30214870041165003973350815557976094460215099335157504709756179746994743010730108942090124375126123643946754116420979037000000000,
  30043096419080428345634972414280433209171147480892374678781903643539608042662278055885360361577392001386501619890083910000000000,
  29843102426859545364763142403003179661692475252652849524804027763601098031080215197560025622948054079798271596962856300000000000,
  29615075924792412077891686169279800091000649142685185865532625810626013678021083114486893495979866148320343516484160000000000000,
  29359231104937832274204215458244189121310837314040018487209781513478264205676742645728451058299602341278474256606800000000000000,
  29075808289926689836113776955034465281670941554539975119496259049053667164716700204669746043477703572296092309537000000000000000,
  28765073707220126774454912493066344034763795210858167618207229415519862370906561576488171548563002294568566702070000000000000000,
  28427319239034626117217768493534999737489190692670315313735033848629835497846271250940825365455892191134426636000000000000000000,
  28062862148168920632501661514981875739142390601059920810294831975912622571866621821599417144799403178023967990000000000000000000,
  27672044779990289706959277043100769849005683467390932137067780462068464745362657077779899253604285767726007800000000000000000000,
  27255234240860207720296243843889723816054951249966901285736278257550266480157798008194344153894358542443235000000000000000000000,
  26812822053301447488100929726935601342198979240187060112356129048052538064834626109225570757352047354159830000000000000000000000,
  26345223788230601794587635843689464955023690240585093177623330372825514491494018579195892454925663323984800000000000000000000000,
  25852878674601545298734915489637047902524563978881037522567611714312657746047063686265337914692355239036000000000000000000000000,
  25336249186826599522671605145573338021670955587939261914459488734423102849355834739507084157588006064270000000000000000000000000,
  24795820610363067566281826867664911538894864658890906545552472030771704689363053223762302864636914069800000000000000000000000000,
  24232100585873356332279476842816590915510363529311222118710055002838426598887782073416871992736074164000000000000000000000000000,
  23645618632387087969684534855311939866388239358792080478633208993008548715459246325291686763721448980000000000000000000000000000,
  23036925649913407232683286070822920555282653686855661559695491299633166560569909767739870425453260600000000000000000000000000000,
  22406593401971109777729357292794529662994928728866751731426373159425137039618175504876334084512158000000000000000000000000000000,
  21755213978523246395012019885318357821220327322345945458992581901020678842292305860792827079647481000000000000000000000000000000,
  21083399239821507465834882046319388817343659616181661970648788092196913746076788497551631466130590000000000000000000000000000000,
  20391780241683983085674564975567999461859057707457354576003873320439904073541441357464998445273600000000000000000000000000000000,
  19681006642747873921176087786558972909295913779050318465667722879700893883160155973705332265490000000000000000000000000000000000,
  18951746094256482560654841493201205458048421994596093800406869374504770628215900539368927421250000000000000000000000000000000000,
  18204683612957499200301989511334656775179957584527097752277499615904381370660993692314274528900000000000000000000000000000000000,
  17440520937707480866609935029023640657649816150506581027915772770446623524777688259974741392960000000000000000000000000000000000,
  16659975870395990922008645075216188339532654981611414339364065829744993526566410288155128278100000000000000000000000000000000000,
  15863781601822977752738448042628322560775754805232922571458883023142593621975987966292998614800000000000000000000000000000000000,
  15052686023186206947674468844053353639138533971690392702444979683497474528797683933854535093000000000000000000000000000000000000,
  14227451023864885329514976832457918654161965810603882993497684217546543645279558787226895463000000000000000000000000000000000000,
  13388851776226770794001022541469970894928813221670336202370138383279808137538975443666889160000000000000000000000000000000000000,
  12537676008250568177073518584267870099871404131710314915711027439456433019148915273895568930000000000000000000000000000000000000,
  11674723264867314999029032653058882725162791499521495277882020267739142700027113138580480320000000000000000000000000000000000000,
  10800804159136293630706470294812005066060027745748163310228132760446232777221356584950520100000000000000000000000000000000000000,
  9916739614803640379808314876222962575534430223196040252217288331526293600305480849430230600000000000000000000000000000000000000,
  9023360102740502810744379276384610597579696779790687550422417815955871953208625506938629100000000000000000000000000000000000000,
  8121504875995447583117098930203879282541800244761467959410063853899680382935681424748156900000000000000000000000000000000000000,
  7212021213920525943052843565751401488149639075643393451144055673323866957014157736958596400000000000000000000000000000000000000,
  6295763701936305382895710262129234992925912073161032236522778536499316024559333957435866900000000000000000000000000000000000000,
  5373593624399058903960836663796166936438064002651570410836446838805797756894042325259164500000000000000000000000000000000000000,
  4446378734443178456126396327689135036072550703588473074194621859722001201125302576557263700000000000000000000000000000000000000,
  3514994494889773029595012588473737961489864864603092494924049647005713677320421525727759200000000000000000000000000000000000000,
  2580332757889042418480297962537212426635170953122772802493608053885613019787425854502813700000000000000000000000000000000000000,
  1643367918724939545640445419511897838115909171973910123228033117726301604577374320302645800000000000000000000000000000000000000,
  706248351458089058042068327400414996991352846922540662090714132043012254360659327215512490000000000000000000000000000000000000]

/-- `case 103` (Util/Gauss_Legendre_Nodes_and_Weights.hpp:26404-26878), `nodes`. -/
def nodes103 : List Int := [
  -999730080944572485964195475006327876462406659441080330839485341180803828841802339926227308988478521857311189693277505129404141350,
  -998578085694657405589078320916577013438736557499307276939855199983739873284446728664928152328743777297704263857383865951718655310,
  -996506671882827049549857093168067824963282999848656433355093354957108301033838533073168053045100049517261081365243238707463870660,
  -993517287258134597228005289442806048902012182248921166487705518799654980273203261907542124122308120082253851819480001112980102060,
  -989612629403879880438556740280809055864641401329937315753173859773141899943239420205180112677647327028100719330671713347128448020,
  -984796282068103625318675452011626237875455333591823052497419436653915583308161089754675599931625012675481594687140674314768855080,
  -979072677897943717661449071028520756010967306137826432833216156666051031413770169230203635367771764970725666051683220774494438550,
  -972447088024582167575311253460124825453855395188733452513220150828316418316736108613354825076691865019525189553306966729746164690,
  -964925615523988933109550823954699750477075564690893335220474597740921319482377396038779635777598141528024554669503706383273173080,
  -956515189234407571077865899793109463718152159059072119279428265239583022447695187242881404369450364730916820296320075512405739000,
  -947223557155171072973379083051882471653840876187699270719602493370065797892606770871258149787111651498141978555052767180296005300,
  -937059279213492787643287773953077011952028464582569322760836544585536352101206206869474050742522603145091881613624530283284114110,
  -926031719332933555713539530500705726124619357588429211225125041690063074983971914043072266866119618485645901077402603069131776740,
  -914151036783307517339008744032875810819349544420305000517720002774833892181385589080580183655051661168435857830360955447872862640,
  -901428176808508018416973325044397384941880219305722174158810880422022687591480826563235650081693987369077656043410260265547293100,
  -887874860535695418451439863314254564899622813069168093251412623457866445318858630223454375340891282276495699695951594024033702610,
  -873503574172634683683796744585478006956527751215576305124513269076778276938569072708243396831481867884805367886439460464308364980,
  -858327557501853317373814831813939704584646025251424273082157694334229237638910586087219135744908753570736441164871394525857291000,
  -842360791681532743637378901057561196908537795853274929912224042642446946975768763446650396096157841707069966771229234802675918360,
  -825617986363988150600625365799421508429349909031559922320098268409722527138211967304402903682130407743573112083356703418922529940,
  -808114566143381955329621936265531671287615441943641595184713456999746168257632999306986102948643312866177229775051006844557342220,
  -789866656345023353179811661584551531174588348560984928453916464384406092879739800057576631606783662047410407181090754082466634450,
  -770891068169264123920919902802043087757191953277484342562755848655630256259464400595214976708295425195274966654291004252572103900,
  -751205283203625615749655504934372852562151814014468045754132060894920207118961426786100958581143154205140546474716232007486907880,
  -730827437317392130626043465508225887238578415349387007058473558643572544856888238840650309385231037772271288940907522124589197050,
  -709776303953486193344992190970135688979540661625950289021841567457559536341179668676021612867287775117313642606963567090105178620,
  -688071276833003651956904958304486449197712762455062032121265205661081271445964030305039796876402564802048175828441873469806726640,
  -665732352088332317258181034328895139743566093314162814630377815890037371870218699300036742318060363826193676667678015813008474810,
  -642780109841307351747606796428373262976264157789899559769778699033862152708424222074647987668760112653028283638090939449771669470,
  -619235695243369950819634754809456810998232993251995634740277833603857126262208123431574019133468890275114361462210744672739057780,
  -595120798995192903145756330016604969858655086176782017687943732711355556121521387843389919546434333972866885221515965670118170860,
  -570457637363717138681671305324774661691669486622975128451031093366475107690570854732823738653233318536345337823665968050978580000,
  -545268931715007071912783241545506530442671668859351073972001934581237752628034989770060739123635095926114320872235189014967294870,
  -519577887581779090740503790320963896560510166528882453219037012242203114819895030379395736543422029769251930130818043842486007690,
  -493408173284886577956579998817642941261577778389250128643809456472096283331496225928505428813037242181515950253412290952154330610,
  -466783898128456028519795225325414521662608822031913751167054371398717932363983489074374687096086276115355029297238152193397978780,
  -439729590188761791022702142561310584044256038890165103380839845757789301186943664859535568722478288704664311735892682407938643240,
  -412270173717301373023764750470147512569620855302650924244677244642270338660138845399089787053377617421334246493041394696264895340,
  -384430946178888775761022278729911493922578980887648399347936958997590148646391340859095712372836449012568228964282875002062512390,
  -356237554945919646019304887065074871492595914880404689723224383842992081200135585622577104167816027335029014775537379277227692620,
  -327715973670278848421768333802238191754331448408721449628937081204247819167222172220535414599515442042364241258303285719906552570,
  -298892478354658083066611535304011106149883914121894935413238518615332276827423154348730434029084070266673590603951033888499189340,
  -269793623145328131051378334003610111488647546689394331603799424748614776270230962097905363124000850890012152888051586195870495550,
  -240446215868666951388199297051775824588671220683995489102839199649422880056799581086100073965760640418094027691949614754044877970,
  -210877293333980942530121056988874188012239729657769084104676015801839365457083746027217052115316632845047221744251741522480715780,
  -181114096425372004069126125984613625004335795467689221926534378280151299365257974940239185559048605520591069168413568965538111180,
  -151184045005597391780412895567126342758482403413923927651990499825542858261890786487242291624844810993438619735684885004511790500,
  -121114712655042573781943196321877132031144420723336306867241864292503742134507205295569491678821185387056112517212213388850338910,
  -90933801269079208148125597472560184456276150792392650156591454179068845311638969998790510908269483285505214284378288462802104783,
  -60669115537210833339069388123881915779400032750281062383917172596387000704414812265684099485013626321150364121704491666954494871,
  -30348537327517772404754284018340020608908142002629313435908455691029628186144898803556572214531960264312219183715055024802468527,
  0,
  30348537327517772404754284018340020608908142002629313435908455691029628186144898803556572214531960264312219183715055024802468527,
  60669115537210833339069388123881915779400032750281062383917172596387000704414812265684099485013626321150364121704491666954494871,
  90933801269079208148125597472560184456276150792392650156591454179068845311638969998790510908269483285505214284378288462802104783,
  121114712655042573781943196321877132031144420723336306867241864292503742134507205295569491678821185387056112517212213388850338910,
  151184045005597391780412895567126342758482403413923927651990499825542858261890786487242291624844810993438619735684885004511790500,
  181114096425372004069126125984613625004335795467689221926534378280151299365257974940239185559048605520591069168413568965538111180,
  210877293333980942530121056988874188012239729657769084104676015801839365457083746027217052115316632845047221744251741522480715780,
  240446215868666951388199297051775824588671220683995489102839199649422880056799581086100073965760640418094027691949614754044877970,
  269793623145328131051378334003610111488647546689394331603799424748614776270230962097905363124000850890012152888051586195870495550,
  298892478354658083066611535304011106149883914121894935413238518615332276827423154348730434029084070266673590603951033888499189340,
  327715973670278848421768333802238191754331448408721449628937081204247819167222172220535414599515442042364241258303285719906552570,
  356237554945919646019304887065074871492595914880404689723224383842992081200135585622577104167816027335029014775537379277227692620,
  384430946178888775761022278729911493922578980887648399347936958997590148646391340859095712372836449012568228964282875002062512390,
  412270173717301373023764750470147512569620855302650924244677244642270338660138845399089787053377617421334246493041394696264895340,
  439729590188761791022702142561310584044256038890165103380839845757789301186943664859535568722478288704664311735892682407938643240,
  466783898128456028519795225325414521662608822031913751167054371398717932363983489074374687096086276115355029297238152193397978780,
  493408173284886577956579998817642941261577778389250128643809456472096283331496225928505428813037242181515950253412290952154330610,
  519577887581779090740503790320963896560510166528882453219037012242203114819895030379395736543422029769251930130818043842486007690,
  545268931715007071912783241545506530442671668859351073972001934581237752628034989770060739123635095926114320872235189014967294870,
  570457637363717138681671305324774661691669486622975128451031093366475107690570854732823738653233318536345337823665968050978580000,
  595120798995192903145756330016604969858655086176782017687943732711355556121521387843389919546434333972866885221515965670118170860,
  619235695243369950819634754809456810998232993251995634740277833603857126262208123431574019133468890275114361462210744672739057780,
  642780109841307351747606796428373262976264157789899559769778699033862152708424222074647987668760112653028283638090939449771669470,
  665732352088332317258181034328895139743566093314162814630377815890037371870218699300036742318060363826193676667678015813008474810,
  688071276833003651956904958304486449197712762455062032121265205661081271445964030305039796876402564802048175828441873469806726640,
  709776303953486193344992190970135688979540661625950289021841567457559536341179668676021612867287775117313642606963567090105178620,
  730827437317392130626043465508225887238578415349387007058473558643572544856888238840650309385231037772271288940907522124589197050,
  751205283203625615749655504934372852562151814014468045754132060894920207118961426786100958581143154205140546474716232007486907880,
  770891068169264123920919902802043087757191953277484342562755848655630256259464400595214976708295425195274966654291004252572103900,
  789866656345023353179811661584551531174588348560984928453916464384406092879739800057576631606783662047410407181090754082466634450,
  808114566143381955329621936265531671287615441943641595184713456999746168257632999306986102948643312866177229775051006844557342220,
  825617986363988150600625365799421508429349909031559922320098268409722527138211967304402903682130407743573112083356703418922529940,
  842360791681532743637378901057561196908537795853274929912224042642446946975768763446650396096157841707069966771229234802675918360,
  858327557501853317373814831813939704584646025251424273082157694334229237638910586087219135744908753570736441164871394525857291000,
  873503574172634683683796744585478006956527751215576305124513269076778276938569072708243396831481867884805367886439460464308364980,
  887874860535695418451439863314254564899622813069168093251412623457866445318858630223454375340891282276495699695951594024033702610,
  901428176808508018416973325044397384941880219305722174158810880422022687591480826563235650081693987369077656043410260265547293100,
  914151036783307517339008744032875810819349544420305000517720002774833892181385589080580183655051661168435857830360955447872862640,
  926031719332933555713539530500705726124619357588429211225125041690063074983971914043072266866119618485645901077402603069131776740,
  937059279213492787643287773953077011952028464582569322760836544585536352101206206869474050742522603145091881613624530283284114110,
  947223557155171072973379083051882471653840876187699270719602493370065797892606770871258149787111651498141978555052767180296005300,
  956515189234407571077865899793109463718152159059072119279428265239583022447695187242881404369450364730916820296320075512405739000,
  964925615523988933109550823954699750477075564690893335220474597740921319482377396038779635777598141528024554669503706383273173080,
  972447088024582167575311253460124825453855395188733452513220150828316418316736108613354825076691865019525189553306966729746164690,
  979072677897943717661449071028520756010967306137826432833216156666051031413770169230203635367771764970725666051683220774494438550,
  984796282068103625318675452011626237875455333591823052497419436653915583308161089754675599931625012675481594687140674314768855080,
  989612629403879880438556740280809055864641401329937315753173859773141899943239420205180112677647327028100719330671713347128448020,
  993517287258134597228005289442806048902012182248921166487705518799654980273203261907542124122308120082253851819480001112980102060,
  996506671882827049549857093168067824963282999848656433355093354957108301033838533073168053045100049517261081365243238707463870660,
  998578085694657405589078320916577013438736557499307276939855199983739873284446728664928152328743777297704263857383865951718655310,
  999730080944572485964195475006327876462406659441080330839485341180803828841802339926227308988478521857311189693277505129404141350]

/-- `case 103` (Util/Gauss_Legendre_Nodes_and_Weights.hpp:26404-26878), `weights`. -/
def weights103 : List Nat := [
  692668297071954591104451247362428848664396143115499551921285021400317680239400241059080480000000000000000000000000000000000000,
  1611780658143912683012885319831636217842441406169169406594699772489250002153880057144774000000000000000000000000000000000000000,
  2530770360356951518638506734608337565581064925423262875246908121980768137074225515426173200000000000000000000000000000000000000,
  3447546905273076953479058098443414709068653122841501990149415220277825300697961540377579000000000000000000000000000000000000000,
  4361171111991397065181353709532951422669572317761831425423740688593234401909669254953403000000000000000000000000000000000000000,
  5270784639647709170067347733066226745388542756161809028614201752827551305407974293811603000000000000000000000000000000000000000,
  6175545075227070035399865847011068316913793809044507696619944698846753568962792363018106000000000000000000000000000000000000000,
  7074617390472122427836343013107781640824660716704003764165707742866094436726211674857542000000000000000000000000000000000000000,
  7967172694718743805823086985201051743516596676578987229835663352311464631828829798576129000000000000000000000000000000000000000,
  8852388430796840380426612988705017370378420865266066209704965233303527951696551097969940000000000000000000000000000000000000000,
  9729448940987485756805898274933114560441708409463442509614715142271327004023419548861314700000000000000000000000000000000000000,
  10597546144279258178249421954345633309844391122862499706204697564773652925388336253395882200000000000000000000000000000000000000,
  11455880248991208098588677637562342621635008334779234543724536617579657600764846708594868600000000000000000000000000000000000000,
  12303660474748442648714533343347073263460771795437036540228890161212046106693036919910939920000000000000000000000000000000000000,
  13140105773591919348660702355056534862896633463853420982004484881434253378268030261680701980000000000000000000000000000000000000,
  13964445545618041456306730401615590964917959389418212744572524722450585063815675729660217720000000000000000000000000000000000000,
  14775920346737800160939086727268818656116702434229586490082997219414150213950557817119095576000000000000000000000000000000000000,
  15573782587074935307113853665791902027347292389582345836511204923316681993625301074410551757000000000000000000000000000000000000,
  16357297218946142665322796426280434986995004158401633418357487710577574166716969555405430788700000000000000000000000000000000000,
  17125742413573310569884485286482646050595734988477653188796808232826216709447809111184861337300000000000000000000000000000000000,
  17878410225786670654313897061292317021326401259819381048879440358968358958601276578916074881710000000000000000000000000000000000,
  18614607246040118884443987825054936769500665256603300934642676066327988868072956629318051438860000000000000000000000000000000000,
  19333655239099389414844653900927264416586036150714592043345436897368310107839726658122390393747000000000000000000000000000000000,
  20034891768791543672101111526546949141865425504912874877648508696855321861477393563545369348341600000000000000000000000000000000,
  20717670808226004099560225872776308614989339410351917982868065353601000405001449352010917690083800000000000000000000000000000000,
  21381363334916025732329039910821697432329215432013493353552492098548400912917365611346137569244060000000000000000000000000000000,
  22025357910246608741011484659956289818885093069921786950660268370287637394325072475598529408939791000000000000000000000000000000,
  22649061242751258405398658615497253871559111809353477936628003423076425843690289994385536153309450400000000000000000000000000000,
  23251898734676168648797396769323836297277273718922900235378847501738948937150535565559331499160822700000000000000000000000000000,
  23833315011326609308278502068716113659730418824392591946634187924152170368290509637836595894766076410000000000000000000000000000,
  24392774432706688510460574482095017487369504461495653787296909313499699215091996277390603788740792287000000000000000000000000000,
  24929761586980326237837980348966522435440610916643698885474102157175553043290591992205203836402207521400000000000000000000000000,
  25443781765298260629873243945513647676767747893236790224495544330216750676822705981624678333745194356780000000000000000000000000,
  25934361417553238391987384730206193058917658174967107680219712104425971158320015910019280180997020174830000000000000000000000000,
  26401048588643223974650681572472241378307125720173058437336839238752289144175408206084092465682605314029000000000000000000000000,
  26843413334840498873387511991172245644130282720397600331640792471672215412791944796599395349525651316819750000000000000000000000,
  27261048119882906536313029858670254746126826541276655060594034536665940224639109750695040649713546068521912000000000000000000000,
  27653568190422220113106172595815180006647763495219023624221425652066880250824481872684486020978648539096190500000000000000000000,
  28020611930483657178198972025049810611197879054286321079059088165034105203321625583184938627681178070149018525000000000000000000,
  28361841194609923330559965275577172425063056522721623511539450610795706986970813492615151890087024245826746640400000000000000000,
  28676941619382819632432013214583294140073315477507192248458290841480844060827462416349931232673907035118000423750000000000000000,
  28965622913035380664928291392119146670148127282938084541674201260965089094001863679839774600219622285156320575085000000000000000,
  29227619122887703293099395828023915342862372869620260748616116402112357322951356886512114128493053796923521373705820000000000000,
  29462688880360063229870634470205988284709566471939879202485040277858440528742274464334746596528670172465289033790675000000000000,
  29670615623337578903367257601481517226129413823833309472620730561370976248125430721597696999661506865228035899623212500000000000,
  29851207795681551338449717625959909887557184999264789932522151366382790605190490060297052821512206646902444527513419871000000000,
  30004299023703665833040276394381418125507130601256257319633886602777958211059588974553301204519407028752890785619275160200000000,
  30129748269440466963852423710459797286917859464638617217547587289517654517723298273640833820965883020895352723755975928014000000,
  30227439960586893503684966094936062105685300456615203289619492999009835542416143266392990204231974328370675280015027296052200000,
  30297284096969164604795009302367883979663085534013228215805524570205576809972511257170860889137032382204736392281117961523350000,
  30339216333458923382630940665027583003690543963807913539868874286289717079921786616817188622785778998399307985507091540552923700,
  30353198039252248981677801828896451095878627783139418401314798980092304852122089270667020165259637535523696097556786653394441304,
  30339216333458923382630940665027583003690543963807913539868874286289717079921786616817188622785778998399307985507091540552923700,
  30297284096969164604795009302367883979663085534013228215805524570205576809972511257170860889137032382204736392281117961523350000,
  30227439960586893503684966094936062105685300456615203289619492999009835542416143266392990204231974328370675280015027296052200000,
  30129748269440466963852423710459797286917859464638617217547587289517654517723298273640833820965883020895352723755975928014000000,
  30004299023703665833040276394381418125507130601256257319633886602777958211059588974553301204519407028752890785619275160200000000,
  29851207795681551338449717625959909887557184999264789932522151366382790605190490060297052821512206646902444527513419871000000000,
  29670615623337578903367257601481517226129413823833309472620730561370976248125430721597696999661506865228035899623212500000000000,
  29462688880360063229870634470205988284709566471939879202485040277858440528742274464334746596528670172465289033790675000000000000,
  29227619122887703293099395828023915342862372869620260748616116402112357322951356886512114128493053796923521373705820000000000000,
  28965622913035380664928291392119146670148127282938084541674201260965089094001863679839774600219622285156320575085000000000000000,
  28676941619382819632432013214583294140073315477507192248458290841480844060827462416349931232673907035118000423750000000000000000,
  28361841194609923330559965275577172425063056522721623511539450610795706986970813492615151890087024245826746640400000000000000000,
  28020611930483657178198972025049810611197879054286321079059088165034105203321625583184938627681178070149018525000000000000000000,
  27653568190422220113106172595815180006647763495219023624221425652066880250824481872684486020978648539096190500000000000000000000,
  27261048119882906536313029858670254746126826541276655060594034536665940224639109750695040649713546068521912000000000000000000000,
  26843413334840498873387511991172245644130282720397600331640792471672215412791944796599395349525651316819750000000000000000000000,
  26401048588643223974650681572472241378307125720173058437336839238752289144175408206084092465682605314029000000000000000000000000,
  25934361417553238391987384730206193058917658174967107680219712104425971158320015910019280180997020174830000000000000000000000000,
  25443781765298260629873243945513647676767747893236790224495544330216750676822705981624678333745194356780000000000000000000000000,
  24929761586980326237837980348966522435440610916643698885474102157175553043290591992205203836402207521400000000000000000000000000,
  24392774432706688510460574482095017487369504461495653787296909313499699215091996277390603788740792287000000000000000000000000000,
  23833315011326609308278502068716113659730418824392591946634187924152170368290509637836595894766076410000000000000000000000000000,
  23251898734676168648797396769323836297277273718922900235378847501738948937150535565559331499160822700000000000000000000000000000,
  22649061242751258405398658615497253871559111809353477936628003423076425843690289994385536153309450400000000000000000000000000000,
  22025357910246608741011484659956289818885093069921786950660268370287637394325072475598529408939791000000000000000000000000000000,
  21381363334916025732329039910821697432329215432013493353552492098548400912917365611346137569244060000000000000000000000000000000,
  20717670808226004099560225872776308614989339410351917982868065353601000405001449352010917690083800000000000000000000000000000000,
  20034891768791543672101111526546949141865425504912874877648508696855321861477393563545369348341600000000000000000000000000000000,
  19333655239099389414844653900927264416586036150714592043345436897368310107839726658122390393747000000000000000000000000000000000,
  18614607246040118884443987825054936769500665256603300934642676066327988868072956629318051438860000000000000000000000000000000000,
  17878410225786670654313897061292317021326401259819381048879440358968358958601276578916074881710000000000000000000000000000000000,
  17125742413573310569884485286482646050595734988477653188796808232826216709447809111184861337300000000000000000000000000000000000,
  16357297218946142665322796426280434986995004158401633418357487710577574166716969555405430788700000000000000000000000000000000000,
  15573782587074935307113853665791902027347292389582345836511204923316681993625301074410551757000000000000000000000000000000000000,
  14775920346737800160939086727268818656116702434229586490082997219414150213950557817119095576000000000000000000000000000000000000,
  13964445545618041456306730401615590964917959389418212744572524722450585063815675729660217720000000000000000000000000000000000000,
  13140105773591919348660702355056534862896633463853420982004484881434253378268030261680701980000000000000000000000000000000000000,
  12303660474748442648714533343347073263460771795437036540228890161212046106693036919910939920000000000000000000000000000000000000,
  11455880248991208098588677637562342621635008334779234543724536617579657600764846708594868600000000000000000000000000000000000000,
  10597546144279258178249421954345633309844391122862499706204697564773652925388336253395882200000000000000000000000000000000000000,
  9729448940987485756805898274933114560441708409463442509614715142271327004023419548861314700000000000000000000000000000000000000,
  8852388430796840380426612988705017370378420865266066209704965233303527951696551097969940000000000000000000000000000000000000000,
  7967172694718743805823086985201051743516596676578987229835663352311464631828829798576129000000000000000000000000000000000000000,
  7074617390472122427836343013107781640824660716704003764165707742866094436726211674857542000000000000000000000000000000000000000,
  6175545075227070035399865847011068316913793809044507696619944698846753568962792363018106000000000000000000000000000000000000000,
  5270784639647709170067347733066226745388542756161809028614201752827551305407974293811603000000000000000000000000000000000000000,
  4361171111991397065181353709532951422669572317761831425423740688593234401909669254953403000000000000000000000000000000000000000,
  3447546905273076953479058098443414709068653122841501990149415220277825300697961540377579000000000000000000000000000000000000000,
  2530770360356951518638506734608337565581064925423262875246908121980768137074225515426173200000000000000000000000000000000000000,
  1611780658143912683012885319831636217842441406169169406594699772489250002153880057144774000000000000000000000000000000000000000,
  692668297071954591104451247362428848664396143115499551921285021400317680239400241059080480000000000000000000000000000000000000]

/-- `case 104` (Util/Gauss_Legendre_Nodes_and_Weights.hpp:26880-27360), `nodes`. -/
def nodes104 : List Int := [
  -999735221876088270319271941299655537812421958781160152924103780284300431702331474804319990071722778917377153937636158052832046480,
  -998605162651977346207698175741067883806631979643435469493955259462749471336831684625996454356475293663580509634687466988129894010,
  -996573171406038938608421383989730970197876516770522886978759921655757646957314408496405346803766466196233179712886570895492809690,
  -993640632689703059843546644610149283466512195479849237726780175193740502859779360948139336027473125911590983268237934536105842280,
  -989810141336719305821213927387160201734387553840580486992856512463299044043869548480093217589218748725220078808040188279325775370,
  -985085145814462050635904475886708546811609795892940263731254855367549458245988117240702524771097322640220747082547252972574329970,
  -979469911790591978029328965328060661503492295261447594994258770881469236513491610229681707145710977454719637274875956629384530900,
  -972969512067358381023768305912942663004127878644785857281095497068964001594341047464981316627796165122251108755264090828211931100,
  -965589820346157085518634385491373448839886771016563049589683791959757561909332796647612574551751982839484889591209869033675489910,
  -957337505370073351199550967706684725847471969410162652364747402081822081937319245223220708330946880234577833184218579222725917600,
  -948220024683483849970313308435647168666179126536780948382182878959632587188966131580217264848000676829291754505116579796850714890,
  -938245617799104275916961634160274433966622690037870453263152239316977157435875060810973111783262195117116520596300984264861121920,
  -927423298707086489993871445852314004722798649558519989849292094670094982182258961635103853779346071767511818922392410911796213620,
  -915762847705915732789711426379742380684298393727521307501727642101437096415925717093892177853071854479139464632893761953085424680,
  -903274802551222088059484549592445732335380684091453741965799859940292989096598716300291405871007341080426881779691392052922948640,
  -889970448925411852635629828492097518883139307027488833243937499346391373796385827362731608464295899959341766372834486704508044990,
  -875861810234271061896714475361421215680363616625595724195256165527685750867126894160128940721684022187470525822489503655466480830,
  -860961636738505093718849875405909271767221761604980342957816750710750682690162839016739450335290464004841517715926089030597859090,
  -845283394029362697009879562063579613450211734193102701074912245380354670612627581897109700660097387876790267725783174546697855310,
  -828841250858382969051484620510789542134035276503857020647930423438244489945179150970457838696058961338539989538940895886653991610,
  -811650066332045885955997035064066721730685995087440542325024844831348495275557231014678551667702777339102586561766078944998990720,
  -793725376482768577455317437010658346556746945547539704974428150810685051664174598802965688546092036558638343668031263213481048640,
  -775083380228303303151172022896095761290455340526988208732250208892302305282340940101744915098150568952953177507908117641573121600,
  -755740924732175383866113154201879306705453377295222677741630748214442683140137054025271777330508734823111360914861232260986832450,
  -735715490178358559028487890920158988094862117943848251186696379442900084310678234002964951281914993854980703146767553471467657680,
  -715025173973925735133402047431128642811988510961533037913191167246911967827283108709500811962204987089837167479158604844148915540,
  -693688674393937103711162468630356329802228324201524075535359167122860558772433180263411446348618230426635318862986404572863069070,
  -671725273683336242471668623050431437514408423096627853026290135648763304870030724195679269867457621448033357603247620539174806870,
  -649154820631118542983815426921371454847850747516462560437061721386306052603591536470637331454212078145788232420686089591446699090,
  -625997712632515250140509103891964489621974607280352352729952920409576758397018972971265507993878599876914520703595743838224408870,
  -602274877255400468146662795969759828904733936684690667724415652009457294962129784531629448835103897110700854030002801772371972330,
  -578007753327577484592388058949721187098997941305361301649019999663488554786298031182457817980068565913360992070108431502607183830,
  -553218271562034422897775829101570937481320746980629264939773845961231321509245241328106193230463867958479371781633589326323076680,
  -527928834737677253465177766736142412559001846986542761739706965830231235384749345011209742719830625573268809861475848420369373580,
  -502162297453450257821181939002543858548243573817269804854269491047680977711255092370994845333649182732040395069922577791966686130,
  -475941945474139824953892670676504720633812177098525947203973097971831372675419955905475067852744807485945565460646635887641511180,
  -449291474686526643759598850647891702000467437827284527019904248506236766090751968098583592538258316568822500282347952542072363830,
  -422234969684903625231438116072397624524607295339926663936459724846585911827949879674420268689567718355480213801691428943876445830,
  -394796882005311937512482527338679830655220984105296713455324481246206752196812302310451204275461620148669996992060823389859470020,
  -367002008028165072621697265025762324099965705226103726734865908630683912720212680041882596811152442383491097558546593333295444100,
  -338875466569230605122243073432472707930761653449460916062661509587928991105474080605345747908684989584855492245624273410665324670,
  -310442676179220984043787404585505469295118924131437816790677617275666510487387573962669588125983973374244263636275365979834639710,
  -281729332172508068823313608562493497735141901702162601473075841358046628170733443708481536365076766926483929103839000672355371100,
  -252761383405720942352125113615013134452058307956358321207498862212777138023552736863825395964436883969677307112683966376854756130,
  -223565008827212589975946068184907954869386852602286876410279697154132631576244020536287631017819095393291752070788111881845265260,
  -194166593818588119543308579683627714376391396549288956945972631521723466579902085357237799719289410852311578624915516596312945210,
  -164592706349675128187788338402793114637042813426035921571420356524186294003625305139785977471168118579947275829626236517589368150,
  -134870072968485427374800894758252586314807966322035849273406333238045186907150230466989071649523277922082830097904911697137568920,
  -105025554647866467034240782295049965385383862136768446771549410892474585636953969352322269574250909056340672047231383986456839670,
  -75086122510670317989068159410507611989363947168604941299588281213648579353048871253531462987715359664295809659453767965761266203,
  -45078833455377862647442125900815035796486326998544647330692459060195618302944902484308583482976692429640914731274786114851040087,
  -15030805704205808070244665861251230868260226783651119643676342227269194255655632913794671673112276395560461837655875789922536881,
  15030805704205808070244665861251230868260226783651119643676342227269194255655632913794671673112276395560461837655875789922536881,
  45078833455377862647442125900815035796486326998544647330692459060195618302944902484308583482976692429640914731274786114851040087,
  75086122510670317989068159410507611989363947168604941299588281213648579353048871253531462987715359664295809659453767965761266203,
  105025554647866467034240782295049965385383862136768446771549410892474585636953969352322269574250909056340672047231383986456839670,
  134870072968485427374800894758252586314807966322035849273406333238045186907150230466989071649523277922082830097904911697137568920,
  164592706349675128187788338402793114637042813426035921571420356524186294003625305139785977471168118579947275829626236517589368150,
  194166593818588119543308579683627714376391396549288956945972631521723466579902085357237799719289410852311578624915516596312945210,
  223565008827212589975946068184907954869386852602286876410279697154132631576244020536287631017819095393291752070788111881845265260,
  252761383405720942352125113615013134452058307956358321207498862212777138023552736863825395964436883969677307112683966376854756130,
  281729332172508068823313608562493497735141901702162601473075841358046628170733443708481536365076766926483929103839000672355371100,
  310442676179220984043787404585505469295118924131437816790677617275666510487387573962669588125983973374244263636275365979834639710,
  338875466569230605122243073432472707930761653449460916062661509587928991105474080605345747908684989584855492245624273410665324670,
  367002008028165072621697265025762324099965705226103726734865908630683912720212680041882596811152442383491097558546593333295444100,
  394796882005311937512482527338679830655220984105296713455324481246206752196812302310451204275461620148669996992060823389859470020,
  422234969684903625231438116072397624524607295339926663936459724846585911827949879674420268689567718355480213801691428943876445830,
  449291474686526643759598850647891702000467437827284527019904248506236766090751968098583592538258316568822500282347952542072363830,
  475941945474139824953892670676504720633812177098525947203973097971831372675419955905475067852744807485945565460646635887641511180,
  502162297453450257821181939002543858548243573817269804854269491047680977711255092370994845333649182732040395069922577791966686130,
  527928834737677253465177766736142412559001846986542761739706965830231235384749345011209742719830625573268809861475848420369373580,
  553218271562034422897775829101570937481320746980629264939773845961231321509245241328106193230463867958479371781633589326323076680,
  578007753327577484592388058949721187098997941305361301649019999663488554786298031182457817980068565913360992070108431502607183830,
  602274877255400468146662795969759828904733936684690667724415652009457294962129784531629448835103897110700854030002801772371972330,
  625997712632515250140509103891964489621974607280352352729952920409576758397018972971265507993878599876914520703595743838224408870,
  649154820631118542983815426921371454847850747516462560437061721386306052603591536470637331454212078145788232420686089591446699090,
  671725273683336242471668623050431437514408423096627853026290135648763304870030724195679269867457621448033357603247620539174806870,
  693688674393937103711162468630356329802228324201524075535359167122860558772433180263411446348618230426635318862986404572863069070,
  715025173973925735133402047431128642811988510961533037913191167246911967827283108709500811962204987089837167479158604844148915540,
  735715490178358559028487890920158988094862117943848251186696379442900084310678234002964951281914993854980703146767553471467657680,
  755740924732175383866113154201879306705453377295222677741630748214442683140137054025271777330508734823111360914861232260986832450,
  775083380228303303151172022896095761290455340526988208732250208892302305282340940101744915098150568952953177507908117641573121600,
  793725376482768577455317437010658346556746945547539704974428150810685051664174598802965688546092036558638343668031263213481048640,
  811650066332045885955997035064066721730685995087440542325024844831348495275557231014678551667702777339102586561766078944998990720,
  828841250858382969051484620510789542134035276503857020647930423438244489945179150970457838696058961338539989538940895886653991610,
  845283394029362697009879562063579613450211734193102701074912245380354670612627581897109700660097387876790267725783174546697855310,
  860961636738505093718849875405909271767221761604980342957816750710750682690162839016739450335290464004841517715926089030597859090,
  875861810234271061896714475361421215680363616625595724195256165527685750867126894160128940721684022187470525822489503655466480830,
  889970448925411852635629828492097518883139307027488833243937499346391373796385827362731608464295899959341766372834486704508044990,
  903274802551222088059484549592445732335380684091453741965799859940292989096598716300291405871007341080426881779691392052922948640,
  915762847705915732789711426379742380684298393727521307501727642101437096415925717093892177853071854479139464632893761953085424680,
  927423298707086489993871445852314004722798649558519989849292094670094982182258961635103853779346071767511818922392410911796213620,
  938245617799104275916961634160274433966622690037870453263152239316977157435875060810973111783262195117116520596300984264861121920,
  948220024683483849970313308435647168666179126536780948382182878959632587188966131580217264848000676829291754505116579796850714890,
  957337505370073351199550967706684725847471969410162652364747402081822081937319245223220708330946880234577833184218579222725917600,
  965589820346157085518634385491373448839886771016563049589683791959757561909332796647612574551751982839484889591209869033675489910,
  972969512067358381023768305912942663004127878644785857281095497068964001594341047464981316627796165122251108755264090828211931100,
  979469911790591978029328965328060661503492295261447594994258770881469236513491610229681707145710977454719637274875956629384530900,
  985085145814462050635904475886708546811609795892940263731254855367549458245988117240702524771097322640220747082547252972574329970,
  989810141336719305821213927387160201734387553840580486992856512463299044043869548480093217589218748725220078808040188279325775370,
  993640632689703059843546644610149283466512195479849237726780175193740502859779360948139336027473125911590983268237934536105842280,
  996573171406038938608421383989730970197876516770522886978759921655757646957314408496405346803766466196233179712886570895492809690,
  998605162651977346207698175741067883806631979643435469493955259462749471336831684625996454356475293663580509634687466988129894010,
  999735221876088270319271941299655537812421958781160152924103780284300431702331474804319990071722778917377153937636158052832046480]

/-- `case 104` (Util/Gauss_Legendre_Nodes_and_Weights.hpp:26880-27360), `weights`. -/
def weights104 : List Nat := [
  679476182484552964878983443019505190886362193398614815509257078775289403600605040672650300000000000000000000000000000000000000,
  1581095291194842321335206150039594606256401060037327194836238215480999666392807163493405800000000000000000000000000000000000000,
  2482621802176784651499629450596004263154459907089948813533744250065281951086671758835605000000000000000000000000000000000000000,
  3382020818687030483098923126279998865295913985501331196414166590191427609251706326631778000000000000000000000000000000000000000,
  4278386752472274641572191868837212454199824602987810119109011599654483397457515142419343000000000000000000000000000000000000000,
  5170893207327753291627090956749948772003135457982232703340559632584202879516178893549665000000000000000000000000000000000000000,
  6058729274750651919318760883981798814237074459878454984538157844529795936339889797558622000000000000000000000000000000000000000,
  6941091125180976026270305189043083180197154860012442133730344801272730584230248661148414000000000000000000000000000000000000000,
  7817180756425349541707377261933635274315482681891621073175315267332747066133450330954165000000000000000000000000000000000000000,
  8686206157923720255491923883811696144422534804053676401334606871500307733793128475597153000000000000000000000000000000000000000,
  9547381838326923016398487052684934860700785083607121682734467395834982702665861019280559000000000000000000000000000000000000000,
  10399929462594686533964061910615480876680536031501538174149850184519366520649865167693344400000000000000000000000000000000000000,
  11243078524165430119994226662210754153061542606331564080050106501184777842873816355492551900000000000000000000000000000000000000,
  12076067026716451262488753168047289305551053864191967115537631569043193966681425379950018300000000000000000000000000000000000000,
  12898142165527331999583254406688939291905500225662818178624484217199347605093624599275025100000000000000000000000000000000000000,
  13708561003965905970538568407363202794390268182143574586925011341866497484693452438741585550000000000000000000000000000000000000,
  14506591142767891248451238742063199259920328782085538325674193455503012410141715310726890840000000000000000000000000000000000000,
  15291511380692672092926693959341872854953079247785216228786343949995413590353110723328150372000000000000000000000000000000000000,
  16062612365552519385442275275683666796971127981746165194976089711164865800356746796182841316000000000000000000000000000000000000,
  16819197234814828465523716376558020137429281289040813971335899940469177526408401839058195294200000000000000000000000000000000000,
  17560582245083015735563851315354753596129678508369714382084831922617258978450872924441152326800000000000000000000000000000000000,
  18286097389822093682416501853374485458448724603476441647388919865096479495432800908700977495240000000000000000000000000000000000,
  18995087004732774841080701634409965463669369694234411886878886380827884093051269634923996907224000000000000000000000000000000000,
  19686910360204323147196729424114877855263825366496765567668788297050544551521403714904079352906000000000000000000000000000000000,
  20360942240296803393035038997774295408548163510212709629639153038342247397441136429746644734153300000000000000000000000000000000,
  21016573507720731298741609682299478635262295567324418893565358419529516205858257158997050190793720000000000000000000000000000000,
  21653211654297919149037931721144207041702467201777678720659243955229373525365615273878176066890630000000000000000000000000000000,
  22270281336402377142922609096705923017412284968918089037519722551063336779632136203930304285378513000000000000000000000000000000,
  22867224894894933719689583871004762536715460418970846746764013953113707530636545211719413695029059400000000000000000000000000000,
  23443502859080043295277654749764352996170994180250516015057840534951271454620610420993300474447435220000000000000000000000000000,
  23998594434228208183516639141804554092875148919444485983576916788852167906564196804520485613871885296000000000000000000000000000,
  24531997972222638999177025389952757037315591617174746935611790264731624199673706018719560082320826154800000000000000000000000000,
  25043231424904262186994868836635384939586113482659331564703155852200474221304645228877457211926657374980000000000000000000000000,
  25531832779704979021358892148074094355828324598420795179246670774117668605313672169692631823049415281214000000000000000000000000,
  25997360477175197775993812501425943789556983803506616026769282054396372975008986557399830524288816969978700000000000000000000000,
  26439393810028101125465111021095927914241738033145674294264931061286175335950407634105536746429486183617100000000000000000000000,
  26857533303339869812900268002428541476455857228597392537528926088209963005786554990681812474086364951313014000000000000000000000,
  27251401075562153020257095109105930286334709338551683603334385982804813926243019936084585604027464453103162500000000000000000000,
  27620641180020444978684888453315892777829855293792908571936222360993627134156468391996034585591103618716948930000000000000000000,
  27964919926589683663822725354519895348832839919655711143857343053284619029356316037272962090075947307264567680000000000000000000,
  28283926183256317187848906144326171037780438304933825105101706053446944985695451888273699024343153291929382922330000000000000000,
  28577371657294272063821364027137466271322333632579798103173766988865088493432085477705397511581493087009821488747000000000000000,
  28844991155800689525667711340273949723376653523918144185348250782729848115221833748097514711569849028668588927715600000000000000,
  29086542825355955652751704196255270519337041403183424426501600815435413087262873921017970014032341050831383282100250000000000000,
  29301808370591421861334805267223326694722542909919827601304453411182327247549989582620689721457991043129626782840358300000000000,
  29490593251467277732841020029413409231853852283148490556403312248976836576415478109927985717692272825199579556817105490000000000,
  29652726859082281213110856870540272326213380594379469606848759404089537325380334083085547092167231552113507265219459585000000000,
  29788062669856454762776338768394257027550720133833439388617399068275588943516817679424861774362626365078928168418649381350000000,
  29896478377947402691261455743629332806157391275830059873577601436470906219179365401765140828313803890651773497553888577390000000,
  29977876005780577121351015073384553034134381065652696449303075073445076869020195790094786793509443085731334689677641508364500000,
  30032181992593600121165413469920117945492946176368719828516333217254798654756860480443567626269980376967749047651817769089622000,
  30059347260914619700824202589646011457346045134341389532931877882960605453479870965366884604676726380959325458611939291729811180,
  30059347260914619700824202589646011457346045134341389532931877882960605453479870965366884604676726380959325458611939291729811180,
  30032181992593600121165413469920117945492946176368719828516333217254798654756860480443567626269980376967749047651817769089622000,
  29977876005780577121351015073384553034134381065652696449303075073445076869020195790094786793509443085731334689677641508364500000,
  29896478377947402691261455743629332806157391275830059873577601436470906219179365401765140828313803890651773497553888577390000000,
  29788062669856454762776338768394257027550720133833439388617399068275588943516817679424861774362626365078928168418649381350000000,
  29652726859082281213110856870540272326213380594379469606848759404089537325380334083085547092167231552113507265219459585000000000,
  29490593251467277732841020029413409231853852283148490556403312248976836576415478109927985717692272825199579556817105490000000000,
  29301808370591421861334805267223326694722542909919827601304453411182327247549989582620689721457991043129626782840358300000000000,
  29086542825355955652751704196255270519337041403183424426501600815435413087262873921017970014032341050831383282100250000000000000,
  28844991155800689525667711340273949723376653523918144185348250782729848115221833748097514711569849028668588927715600000000000000,
  28577371657294272063821364027137466271322333632579798103173766988865088493432085477705397511581493087009821488747000000000000000,
  28283926183256317187848906144326171037780438304933825105101706053446944985695451888273699024343153291929382922330000000000000000,
  27964919926589683663822725354519895348832839919655711143857343053284619029356316037272962090075947307264567680000000000000000000,
  27620641180020444978684888453315892777829855293792908571936222360993627134156468391996034585591103618716948930000000000000000000,
  27251401075562153020257095109105930286334709338551683603334385982804813926243019936084585604027464453103162500000000000000000000,
  26857533303339869812900268002428541476455857228597392537528926088209963005786554990681812474086364951313014000000000000000000000,
  26439393810028101125465111021095927914241738033145674294264931061286175335950407634105536746429486183617100000000000000000000000,
  25997360477175197775993812501425943789556983803506616026769282054396372975008986557399830524288816969978700000000000000000000000,
  25531832779704979021358892148074094355828324598420795179246670774117668605313672169692631823049415281214000000000000000000000000,
  25043231424904262186994868836635384939586113482659331564703155852200474221304645228877457211926657374980000000000000000000000000,
  24531997972222638999177025389952757037315591617174746935611790264731624199673706018719560082320826154800000000000000000000000000,
  23998594434228208183516639141804554092875148919444485983576916788852167906564196804520485613871885296000000000000000000000000000,
  23443502859080043295277654749764352996170994180250516015057840534951271454620610420993300474447435220000000000000000000000000000,
  22867224894894933719689583871004762536715460418970846746764013953113707530636545211719413695029059400000000000000000000000000000,
  22270281336402377142922609096705923017412284968918089037519722551063336779632136203930304285378513000000000000000000000000000000,
  21653211654297919149037931721144207041702467201777678720659243955229373525365615273878176066890630000000000000000000000000000000,
  21016573507720731298741609682299478635262295567324418893565358419529516205858257158997050190793720000000000000000000000000000000,
  20360942240296803393035038997774295408548163510212709629639153038342247397441136429746644734153300000000000000000000000000000000,
  19686910360204323147196729424114877855263825366496765567668788297050544551521403714904079352906000000000000000000000000000000000,
  18995087004732774841080701634409965463669369694234411886878886380827884093051269634923996907224000000000000000000000000000000000,
  18286097389822093682416501853374485458448724603476441647388919865096479495432800908700977495240000000000000000000000000000000000,
  17560582245083015735563851315354753596129678508369714382084831922617258978450872924441152326800000000000000000000000000000000000,
  16819197234814828465523716376558020137429281289040813971335899940469177526408401839058195294200000000000000000000000000000000000,
  16062612365552519385442275275683666796971127981746165194976089711164865800356746796182841316000000000000000000000000000000000000,
  15291511380692672092926693959341872854953079247785216228786343949995413590353110723328150372000000000000000000000000000000000000,
  14506591142767891248451238742063199259920328782085538325674193455503012410141715310726890840000000000000000000000000000000000000,
  13708561003965905970538568407363202794390268182143574586925011341866497484693452438741585550000000000000000000000000000000000000,
  12898142165527331999583254406688939291905500225662818178624484217199347605093624599275025100000000000000000000000000000000000000,
  12076067026716451262488753168047289305551053864191967115537631569043193966681425379950018300000000000000000000000000000000000000,
  11243078524165430119994226662210754153061542606331564080050106501184777842873816355492551900000000000000000000000000000000000000,
  10399929462594686533964061910615480876680536031501538174149850184519366520649865167693344400000000000000000000000000000000000000,
  9547381838326923016398487052684934860700785083607121682734467395834982702665861019280559000000000000000000000000000000000000000,
  8686206157923720255491923883811696144422534804053676401334606871500307733793128475597153000000000000000000000000000000000000000,
  7817180756425349541707377261933635274315482681891621073175315267332747066133450330954165000000000000000000000000000000000000000,
  6941091125180976026270305189043083180197154860012442133730344801272730584230248661148414000000000000000000000000000000000000000,
  6058729274750651919318760883981798814237074459878454984538157844529795936339889797558622000000000000000000000000000000000000000,
  5170893207327753291627090956749948772003135457982232703340559632584202879516178893549665000000000000000000000000000000000000000,
  4278386752472274641572191868837212454199824602987810119109011599654483397457515142419343000000000000000000000000000000000000000,
  3382020818687030483098923126279998865295913985501331196414166590191427609251706326631778000000000000000000000000000000000000000,
  2482621802176784651499629450596004263154459907089948813533744250065281951086671758835605000000000000000000000000000000000000000,
  1581095291194842321335206150039594606256401060037327194836238215480999666392807163493405800000000000000000000000000000000000000,
  679476182484552964878983443019505190886362193398614815509257078775289403600605040672650300000000000000000000000000000000000000]

/-- `case 105` (Util/Gauss_Legendre_Nodes_and_Weights.hpp:27362-27842), `nodes`. -/
def nodes105 : List Int := [
  -999740217323820519937185283863421054333432372697945156295637230148867851185864071824402508269782407689685053103237045429229979660,
  -998631473545333039042866620482556832962592682506685429021681266342418448605789872149607697298254690314218602651705063285627244230,
  -996637790357182194112598446586492022888613608870701371704874976923926800255774819127524785325519212920556280873821882712528664460,
  -993760492225756944007150515950181528714493561456041624698325293882360419949029846474270481562631561648044767067654557823482957830,
  -990002076050902796865124595022277731719875924015289875063096462383283201085332308870880180674978638947150434709090563664020413290,
  -985365861334156126968416645333579013686204472561172443549364744405301658012148078145683993496912370121595536419048872096458094000,
  -979855954547394608899458248180808486302123919115914736740083261346909532403730952046163247526791476787023325559417540437430943620,
  -973477239398280172058649712504719396750327190254710863307068024267520690382545709459473974825874444752720953971428258768189441020,
  -966235370880153598238904917378777573426644034544472765081207031615238607753595858655347868717993404471437055041941575471504959840,
  -958136769719022258255776026708201005534603324135591414716461047748838044964793112907533783380788290411900954362349400098248250680,
  -949188616470811540043752819147416873654370009263692442469737645035887381132252486439093934422958797859573582880217563754472419980,
  -939398845062925726953542361122604246216794429037440249151756702795063222142209729993895861121267428537165683607968367745380981890,
  -928776135715625632551102089104827100190126968381319305917424404101686518796408193451219013541125458949827478911007481543416533280,
  -917329907222990796762959563633523324108075848627519590640566419262413976963066402694517923387615566765291064727938031473504497590,
  -905070308589255082432832450352918240137033983014689235254045431807957411118630187249542204559177045023207994289152139093411256060,
  -892008210022934454856880279620671374653925147154277617265723975169466404743168299960041984450661902329431945875169098716880956340,
  -878155193294318192992585908004081717511881237945374136803231823235884673692092176222882521946816985824545536823784461041340119280,
  -863523541463639957824996432662456413760749517945539657062068042718086450757521574281211977979505468657913745658727461179876856960,
  -848126227988375499721007460974754212103892722650559336520003075196148733698053992269835763704000072152413467361971333401956238400,
  -831976905218956083033376678790925173671448012076565526021576943887655431251894107784408151510894448040620383885417032939268927650,
  -815089892292884369705589585198595958622639012665192829908354364851017445046216541773251512554938960177196664228839668211022431120,
  -797480162437858900209951678175664186170240188092589135266306569378177791083940531336134643416302261333098334720949761523545838020,
  -779163329695086531479791222052048512759609429463066882162688879616901066752729021399982287583696491919762939335331736671435038760,
  -760155635074505315757870777565184246359235866287674430072774984602337907797588117427663097958064623514299752749485504125243382880,
  -740473932154161597594165167282333235604369334468725638220816955720272993168847322372831851721465557110332259639561808727769666210,
  -720135672136488875754834831440574183263546354482977945540123078149053217010054323292707114745286617161032542146844533312779991320,
  -699158888374724455081498909296254864451791580629221952172831069486113803911020743213921799157041491504781864095801777296013426180,
  -677562180383174213518864416902147047063107298835845892957422073378135023072635371018846096063475841498117363839258029442010144880,
  -655364697345496425665277939089874029239047603684022682925165213051668601302007262718446885057855595421425711524324749586463293170,
  -632586121135622661130394530188019486452586261938506484807968092809181842307885105594001013280575934794995790560857350249964799230,
  -609246648866367258916886592089572071099965283358692965471132729587854326251650655391500381004824697918504451692199275202665859820,
  -585366974981196598596868657623199214822763876442806075219664560257282490250093522336760694575958186022217675698706417082161524440,
  -560968272905035110740870084648550799307904666766760117786786622851734536032176086561343832737294718472549680065145612674427346060,
  -536072176270376422734267346487864875987459591577684634261853389077548062743018320447307919524435313275602365490880405184745091770,
  -510700759735344933890981967314121609762645829416966575973970293624908839335016684255633534266986653473337089399159488839281809750,
  -484876519410715161128152076596785823320476409115450239228986220978263275430579576340006948577053317851664321336562759990680124230,
  -458622352913243099309457381133588783088161741561460093350874545140478193581484206241399037987108767230748808347672956791424493690,
  -431961539062995309616293971784600219239033915918594723913341179087963631951046971372136238436977435932743519492237009647320898940,
  -404917717242677203926197608222346875433543897344042620888168513083575475519235524685668904502330979433791400481139454670442317790,
  -377514866437261762237213924411718701366251399943608997943380956101345928221501417499098525813856351020897889882982301260211186340,
  -349777283972503444296864437148593342373393832055761690069037507563641423461661876253265816028014166367603326618488809027809473930,
  -321729563971189088982169576097147561323724617854228102451088719367812962883590123020560645390756392865825878088532553961717184330,
  -293396575546227902189333278014904788832681790408702216438543543501426634611657182162871519227769293864578321400969234673218343840,
  -264803440749915996513715701342397706273109340267047257965981172811861394761820296020407616069337715515607118888037213170930641930,
  -235975512298927158699616551118630746736663933616660389772649272092312422652756813110384590954157358485826996105282106521307095320,
  -206938351094780393325343037382760769290465429968749517585763702380819658918121890745773434372178851540003917261260509909642581450,
  -177717703559716148110845216959681252843357097391865495963830358805495834236848782666140924987607168081895857340374284367474673580,
  -148339478808076807525642602006364567144120266518353898730029416649111061328970497570925877680128837035041783519711559773282235030,
  -118829725673432902456782660199013008361096032534283359126180245732839865376484237301368460237432188113159746231285551024363431030,
  -89214609611824395657719876539860209314141524515390078295703384525557215399679740462962302006528488648612757689564662610298901620,
  -59520389501596252439209401309200040329769788308707836337263247096722887905051168013716339496624786904310465447327760770533343653,
  -29773394360399196419419658638729043267870992024231661476649864045727402469305770485643645065187540607398101746750885591366581548,
  0,
  29773394360399196419419658638729043267870992024231661476649864045727402469305770485643645065187540607398101746750885591366581548,
  59520389501596252439209401309200040329769788308707836337263247096722887905051168013716339496624786904310465447327760770533343653,
  89214609611824395657719876539860209314141524515390078295703384525557215399679740462962302006528488648612757689564662610298901620,
  118829725673432902456782660199013008361096032534283359126180245732839865376484237301368460237432188113159746231285551024363431030,
  148339478808076807525642602006364567144120266518353898730029416649111061328970497570925877680128837035041783519711559773282235030,
  177717703559716148110845216959681252843357097391865495963830358805495834236848782666140924987607168081895857340374284367474673580,
  206938351094780393325343037382760769290465429968749517585763702380819658918121890745773434372178851540003917261260509909642581450,
  235975512298927158699616551118630746736663933616660389772649272092312422652756813110384590954157358485826996105282106521307095320,
  264803440749915996513715701342397706273109340267047257965981172811861394761820296020407616069337715515607118888037213170930641930,
  293396575546227902189333278014904788832681790408702216438543543501426634611657182162871519227769293864578321400969234673218343840,
  321729563971189088982169576097147561323724617854228102451088719367812962883590123020560645390756392865825878088532553961717184330,
  349777283972503444296864437148593342373393832055761690069037507563641423461661876253265816028014166367603326618488809027809473930,
  377514866437261762237213924411718701366251399943608997943380956101345928221501417499098525813856351020897889882982301260211186340,
  404917717242677203926197608222346875433543897344042620888168513083575475519235524685668904502330979433791400481139454670442317790,
  431961539062995309616293971784600219239033915918594723913341179087963631951046971372136238436977435932743519492237009647320898940,
  458622352913243099309457381133588783088161741561460093350874545140478193581484206241399037987108767230748808347672956791424493690,
  484876519410715161128152076596785823320476409115450239228986220978263275430579576340006948577053317851664321336562759990680124230,
  510700759735344933890981967314121609762645829416966575973970293624908839335016684255633534266986653473337089399159488839281809750,
  536072176270376422734267346487864875987459591577684634261853389077548062743018320447307919524435313275602365490880405184745091770,
  560968272905035110740870084648550799307904666766760117786786622851734536032176086561343832737294718472549680065145612674427346060,
  585366974981196598596868657623199214822763876442806075219664560257282490250093522336760694575958186022217675698706417082161524440,
  609246648866367258916886592089572071099965283358692965471132729587854326251650655391500381004824697918504451692199275202665859820,
  632586121135622661130394530188019486452586261938506484807968092809181842307885105594001013280575934794995790560857350249964799230,
  655364697345496425665277939089874029239047603684022682925165213051668601302007262718446885057855595421425711524324749586463293170,
  677562180383174213518864416902147047063107298835845892957422073378135023072635371018846096063475841498117363839258029442010144880,
  699158888374724455081498909296254864451791580629221952172831069486113803911020743213921799157041491504781864095801777296013426180,
  720135672136488875754834831440574183263546354482977945540123078149053217010054323292707114745286617161032542146844533312779991320,
  740473932154161597594165167282333235604369334468725638220816955720272993168847322372831851721465557110332259639561808727769666210,
  760155635074505315757870777565184246359235866287674430072774984602337907797588117427663097958064623514299752749485504125243382880,
  779163329695086531479791222052048512759609429463066882162688879616901066752729021399982287583696491919762939335331736671435038760,
  797480162437858900209951678175664186170240188092589135266306569378177791083940531336134643416302261333098334720949761523545838020,
  815089892292884369705589585198595958622639012665192829908354364851017445046216541773251512554938960177196664228839668211022431120,
  831976905218956083033376678790925173671448012076565526021576943887655431251894107784408151510894448040620383885417032939268927650,
  848126227988375499721007460974754212103892722650559336520003075196148733698053992269835763704000072152413467361971333401956238400,
  863523541463639957824996432662456413760749517945539657062068042718086450757521574281211977979505468657913745658727461179876856960,
  878155193294318192992585908004081717511881237945374136803231823235884673692092176222882521946816985824545536823784461041340119280,
  892008210022934454856880279620671374653925147154277617265723975169466404743168299960041984450661902329431945875169098716880956340,
  905070308589255082432832450352918240137033983014689235254045431807957411118630187249542204559177045023207994289152139093411256060,
  917329907222990796762959563633523324108075848627519590640566419262413976963066402694517923387615566765291064727938031473504497590,
  928776135715625632551102089104827100190126968381319305917424404101686518796408193451219013541125458949827478911007481543416533280,
  939398845062925726953542361122604246216794429037440249151756702795063222142209729993895861121267428537165683607968367745380981890,
  949188616470811540043752819147416873654370009263692442469737645035887381132252486439093934422958797859573582880217563754472419980,
  958136769719022258255776026708201005534603324135591414716461047748838044964793112907533783380788290411900954362349400098248250680,
  966235370880153598238904917378777573426644034544472765081207031615238607753595858655347868717993404471437055041941575471504959840,
  973477239398280172058649712504719396750327190254710863307068024267520690382545709459473974825874444752720953971428258768189441020,
  979855954547394608899458248180808486302123919115914736740083261346909532403730952046163247526791476787023325559417540437430943620,
  985365861334156126968416645333579013686204472561172443549364744405301658012148078145683993496912370121595536419048872096458094000,
  990002076050902796865124595022277731719875924015289875063096462383283201085332308870880180674978638947150434709090563664020413290,
  993760492225756944007150515950181528714493561456041624698325293882360419949029846474270481562631561648044767067654557823482957830,
  996637790357182194112598446586492022888613608870701371704874976923926800255774819127524785325519212920556280873821882712528664460,
  998631473545333039042866620482556832962592682506685429021681266342418448605789872149607697298254690314218602651705063285627244230,
  999740217323820519937185283863421054333432372697945156295637230148867851185864071824402508269782407689685053103237045429229979660]

/-- `case 105` (Util/Gauss_Legendre_Nodes_and_Weights.hpp:27362-27842), `weights`. -/
def weights105 : List Nat := [
  666657371329679146748510800318679296006970930009334895023956376626767602020315391438974800000000000000000000000000000000000000,
  1551277812028709533467013164628365969629781831987734608701550047151077704527905252634506000000000000000000000000000000000000000,
  2435833834531674028676303890706183205305012834091457974555997703011737791184797773753617000000000000000000000000000000000000000,
  3318343984432937141128089271848504875189654949310628337748518616925346744602741526654469000000000000000000000000000000000000000,
  4197934734046444774827665448503872324586398339950918416352438837734120623975699813377750000000000000000000000000000000000000000,
  5073810152360539776206131438165005467278573793228572748687749227284573795352636426913270000000000000000000000000000000000000000,
  5945189375921391743237387746264617483023746501658567603998969799861205253279835843486880000000000000000000000000000000000000000,
  6811298332164193313116039350334579360392263507297095833847544126943351519573905668371180000000000000000000000000000000000000000,
  7671368485093150239241375594794241188564595696016561046382251449221173765949317657921352000000000000000000000000000000000000000,
  8524636970333291674959600210346200762257648901235459396335496193862554048074654356360449000000000000000000000000000000000000000,
  9370347086916489332220865777335592039559642116199704796842685480131753308294874481116838000000000000000000000000000000000000000,
  10207748896834689231471116957003743180975424664354268085087320079633435311608936561033160000000000000000000000000000000000000000,
  11036099859350911882520816827887094109862874571709473266616523694406152624689260005802746000000000000000000000000000000000000000,
  11854665475101496517066586622984324540740952297620672067444454128965288254447678297365041100000000000000000000000000000000000000,
  12662719930224488685716006860597007470350708951513439942227266300732762797129816476028717600000000000000000000000000000000000000,
  13459546736151190027757792254315672851602735601846215900133404729684902545240279119900930300000000000000000000000000000000000000,
  14244439362808515914750282065381099011577208665077369903209999684470091168399498232698269200000000000000000000000000000000000000,
  15016701863873412940990157233525635597635294456889634380748722062601145685568821588011936800000000000000000000000000000000000000,
  15775649493126953936697942288184235059418269902988464534125298876484348319231756320420423864000000000000000000000000000000000000,
  16520609311153548175010630282294155831969723450841077931167427405795574612677481916654621797000000000000000000000000000000000000,
  17250920781734076623112114128599315489685931021395938223081621574749832201536961367637553764500000000000000000000000000000000000,
  17965936357340275527127148868553780668316663082519631106970101785243126921220349802268442698900000000000000000000000000000000000,
  18665022053174047547981259155466450913407946147338088092155342395590768885495264767680871415540000000000000000000000000000000000,
  19347558009220454239538088278457561536338446952905670719121331989494090793894347916059258515740000000000000000000000000000000000,
  20012939039802360786516124345301119697258118022240779188853639267659361653887152167973575448089000000000000000000000000000000000,
  20660575170140865839982946749798358116969384651481240253476698792854842379393206353116196537417100000000000000000000000000000000,
  21289892159440249383007171400312440462362633462840269034766858512112255902442671378339554860126080000000000000000000000000000000,
  21900332010030027250284724083980688412852887573401673066732330591678299677536203603399488004088516000000000000000000000000000000,
  22491353462110269636090368462120050773976665975449622519322589874896003521380302956526807653595120000000000000000000000000000000,
  23062432473659882881507141427008492681853616195471256257965566255359657110415055678637229296111692800000000000000000000000000000,
  23613062685081218405067145173583250075125835562458701565870683062338217110838531857622728983417857050000000000000000000000000000,
  24142755868168245358233542686079148704367578806319294221382058947666876858207583159726553385136830816000000000000000000000000000,
  24651042358999652361645901015575904704283979590821325440600463189848902445331945027464683111016648556200000000000000000000000000,
  25137471474372653773287996814973350078193539407234651380422741743697241083095927984973097590958715801360000000000000000000000000,
  25601611911407978688114568666494994898671539949515256733310753960838538007282955484222277626047558650797000000000000000000000000,
  26043052129971518850756582221418506421642588520450166876165838806427290549503722526217245732526028076777000000000000000000000000,
  26461400717573401841489330107779225494145264064352809774503449889546792534512717769392670177337897859231080000000000000000000000,
  26856286736420831545687147427439024980507054146653956777837847069091737178881802219305430226923520727309846000000000000000000000,
  27227360052316889834603232162543078678637554071651000013480682982733802285164139399657358839312863893811729700000000000000000000,
  27574291645113610657706313216018459312814007141383277285931295080037671220698627287702881235839693100131558036000000000000000000,
  27896773900444008251099186625147919655976903314449328785682842734513942275851305333744698030790416725750969215500000000000000000,
  28194520882474351898658436823755366130015011812777355721006444704288355018478872332987894024216628271476166508470000000000000000,
  28467268587434816978165903920162246000356728057766514539593844724405447208930464281231185223738940924554188764302000000000000000,
  28714775177703691710924180212027538172135932768578838691865940379218148891911617973134600347339056544186907091910320000000000000,
  28936821196237566535094697495386333867917925920854855132507812619241224829469531361043567252037918348008497938580599000000000000,
  29133209761157363439880425499751773592069538128131224381203702918404248224119966863730223392159050235014931801282608200000000000,
  29303766740317660761103883075251879073628396676921389570150867178592552252225628112037473651953723047235639981564454716000000000,
  29448340905704519455819272997201063919323856377033595010095068514808354484673769258564933460745157446750969040302120154600000000,
  29566804067524904162148368624590528913929060829822603188330873124489469253759027088025071438243369192943210797803290595566000000,
  29659051187868800667937032711592874612244781594631108623439247616468847845122310684988201268767950751833320374012680324031100000,
  29725000473843244879808748713803371102789786113785974480815537075586032754335823125106617453949295945656325440492923056886035000,
  29764593450095681010639405564482194590412897782500307709101528507353590911485720192410218486983321382778507367298101321053696100,
  29777795010662342402342594519849797283720928626071287930033638618474228506172563950252561460993037604011274103507864348581793845,
  29764593450095681010639405564482194590412897782500307709101528507353590911485720192410218486983321382778507367298101321053696100,
  29725000473843244879808748713803371102789786113785974480815537075586032754335823125106617453949295945656325440492923056886035000,
  29659051187868800667937032711592874612244781594631108623439247616468847845122310684988201268767950751833320374012680324031100000,
  29566804067524904162148368624590528913929060829822603188330873124489469253759027088025071438243369192943210797803290595566000000,
  29448340905704519455819272997201063919323856377033595010095068514808354484673769258564933460745157446750969040302120154600000000,
  29303766740317660761103883075251879073628396676921389570150867178592552252225628112037473651953723047235639981564454716000000000,
  29133209761157363439880425499751773592069538128131224381203702918404248224119966863730223392159050235014931801282608200000000000,
  28936821196237566535094697495386333867917925920854855132507812619241224829469531361043567252037918348008497938580599000000000000,
  28714775177703691710924180212027538172135932768578838691865940379218148891911617973134600347339056544186907091910320000000000000,
  28467268587434816978165903920162246000356728057766514539593844724405447208930464281231185223738940924554188764302000000000000000,
  28194520882474351898658436823755366130015011812777355721006444704288355018478872332987894024216628271476166508470000000000000000,
  27896773900444008251099186625147919655976903314449328785682842734513942275851305333744698030790416725750969215500000000000000000,
  27574291645113610657706313216018459312814007141383277285931295080037671220698627287702881235839693100131558036000000000000000000,
  27227360052316889834603232162543078678637554071651000013480682982733802285164139399657358839312863893811729700000000000000000000,
  26856286736420831545687147427439024980507054146653956777837847069091737178881802219305430226923520727309846000000000000000000000,
  26461400717573401841489330107779225494145264064352809774503449889546792534512717769392670177337897859231080000000000000000000000,
  26043052129971518850756582221418506421642588520450166876165838806427290549503722526217245732526028076777000000000000000000000000,
  25601611911407978688114568666494994898671539949515256733310753960838538007282955484222277626047558650797000000000000000000000000,
  25137471474372653773287996814973350078193539407234651380422741743697241083095927984973097590958715801360000000000000000000000000,
  24651042358999652361645901015575904704283979590821325440600463189848902445331945027464683111016648556200000000000000000000000000,
  24142755868168245358233542686079148704367578806319294221382058947666876858207583159726553385136830816000000000000000000000000000,
  23613062685081218405067145173583250075125835562458701565870683062338217110838531857622728983417857050000000000000000000000000000,
  23062432473659882881507141427008492681853616195471256257965566255359657110415055678637229296111692800000000000000000000000000000,
  22491353462110269636090368462120050773976665975449622519322589874896003521380302956526807653595120000000000000000000000000000000,
  21900332010030027250284724083980688412852887573401673066732330591678299677536203603399488004088516000000000000000000000000000000,
  21289892159440249383007171400312440462362633462840269034766858512112255902442671378339554860126080000000000000000000000000000000,
  20660575170140865839982946749798358116969384651481240253476698792854842379393206353116196537417100000000000000000000000000000000,
  20012939039802360786516124345301119697258118022240779188853639267659361653887152167973575448089000000000000000000000000000000000,
  19347558009220454239538088278457561536338446952905670719121331989494090793894347916059258515740000000000000000000000000000000000,
  18665022053174047547981259155466450913407946147338088092155342395590768885495264767680871415540000000000000000000000000000000000,
  17965936357340275527127148868553780668316663082519631106970101785243126921220349802268442698900000000000000000000000000000000000,
  17250920781734076623112114128599315489685931021395938223081621574749832201536961367637553764500000000000000000000000000000000000,
  16520609311153548175010630282294155831969723450841077931167427405795574612677481916654621797000000000000000000000000000000000000,
  15775649493126953936697942288184235059418269902988464534125298876484348319231756320420423864000000000000000000000000000000000000,
  15016701863873412940990157233525635597635294456889634380748722062601145685568821588011936800000000000000000000000000000000000000,
  14244439362808515914750282065381099011577208665077369903209999684470091168399498232698269200000000000000000000000000000000000000,
  13459546736151190027757792254315672851602735601846215900133404729684902545240279119900930300000000000000000000000000000000000000,
  12662719930224488685716006860597007470350708951513439942227266300732762797129816476028717600000000000000000000000000000000000000,
  11854665475101496517066586622984324540740952297620672067444454128965288254447678297365041100000000000000000000000000000000000000,
  11036099859350911882520816827887094109862874571709473266616523694406152624689260005802746000000000000000000000000000000000000000,
  10207748896834689231471116957003743180975424664354268085087320079633435311608936561033160000000000000000000000000000000000000000,
  9370347086916489332220865777335592039559642116199704796842685480131753308294874481116838000000000000000000000000000000000000000,
  8524636970333291674959600210346200762257648901235459396335496193862554048074654356360449000000000000000000000000000000000000000,
  7671368485093150239241375594794241188564595696016561046382251449221173765949317657921352000000000000000000000000000000000000000,
  6811298332164193313116039350334579360392263507297095833847544126943351519573905668371180000000000000000000000000000000000000000,
  5945189375921391743237387746264617483023746501658567603998969799861205253279835843486880000000000000000000000000000000000000000,
  5073810152360539776206131438165005467278573793228572748687749227284573795352636426913270000000000000000000000000000000000000000,
  4197934734046444774827665448503872324586398339950918416352438837734120623975699813377750000000000000000000000000000000000000000,
  3318343984432937141128089271848504875189654949310628337748518616925346744602741526654469000000000000000000000000000000000000000,
  2435833834531674028676303890706183205305012834091457974555997703011737791184797773753617000000000000000000000000000000000000000,
  1551277812028709533467013164628365969629781831987734608701550047151077704527905252634506000000000000000000000000000000000000000,
  666657371329679146748510800318679296006970930009334895023956376626767602020315391438974800000000000000000000000000000000000000]

/-- `case 106` (Util/Gauss_Legendre_Nodes_and_Weights.hpp:27844-28330), `nodes`. -/
def nodes106 : List Int := [
  -999745072725757546707659659754832748548377969215208141451651757824129551020025650780728556141836408334396750391070051055358233410,
  -998657047000421422869261089780696537610845530645758120653344016576432020535310912918935473795447100447415121567159048067799488540,
  -996700598969393002704593666220368995908150170141118127986870604928213404945408277326094645721175301985976611785846671021014726570,
  -993876995949310612434691056841933837085875109857522389990177949867655735559880113012010143040977841764144229975057198738997077710,
  -990188641454026682414764531594875654348886655244327246903693384267354801023872867742862686755823302681563727980582007877191832920,
  -985638731983841774389809096535512713399995845106019589118881760739531418608822715824149615266747106803270480525123931825334754000,
  -980231222167392157734507808648590715068161915070198286680086031371206780022841139454630083575070148174591331201803085939425247180,
  -973970815341230469497425334259304011848831567401209497434114087900716786343799607236708660520246509661304162714138465376773608010,
  -966862957867899415836995239006367705885666632923224786835089356269077918094341159185685444954167832449057638510318816654794507800,
  -958913833868248448754981625367902362247720264490935436852981362044925024722315543279690477106816993811463554099680066875813725360,
  -950130359634884006869243763204907204503670874775137587314067891097587503788542737875452535575335032475431542209589584894824407660,
  -940520177524377016926890209370948642029181959542625469120829983128390731192400893350085237454794606704630749370264996322192358370,
  -930091649264636846651304918659040551468880509485724452131775729170355605933223081685673408901071090443310390025060698541706146990,
  -918853848657262557852609606665914971149340162344723584515701916530507011155355118992953013704548868353720829234456977236713615170,
  -906816553670372741364813275931844737613985070972967398592315451575099303679493597489954080626914336218474649517638578209446977270,
  -893990237923890523223821307139859701360850781416994331144036761181895822955116786774365421182481275440324660785392829126054990910,
  -880386061572323628117699781708151100130677450066404290498276197592687365792037286215177972321082006479207691427066389193452572820,
  -866015861591762199685411346428523077620262421435502606560914446895554190410080104664114163460395902268871254643557428592322900970,
  -850892141478897099037201864094243547561021351256814182697820920838449836528972263644481215504837593472443139873091420683488745310,
  -835028060370659320208381281364188233707641853026626670386377446840352488782009172930015356596055048871405049264951157774360394130,
  -818437421593737754083308119921620059849128567854657039804440133087387372629509353095923836708217279168417292252963375601225580580,
  -801134660653812959384863036438973190879504740782582615575822359523485755836101365444298807179814521601115969256488142837492550460,
  -783134832674880384933630498488267870813354384250378175708166039142154192489006446746336991838801154815362059428545470225905405150,
  -764453599299543440970046980530896325637882281096591643362724072258472221811144969481693830861458755862712924142588287855232233780,
  -745107215061643081511541983901382068688214169496362086688750589724459326517059340209614526694919390408647030784604877884377156360,
  -725112513243060391337516200500437945207773165920607663926644994769762637488941531488631707081486097351142941261611123536763041810,
  -704486891226984290410711252163211632868505290329495921251471113785281251599410604628333880088998643553996893226501315063326358680,
  -683248295360378996178162885125999004778302920067585075582100691476912552851376979569345629619467200135903789929532518563095485430,
  -661415205338815832641566130462415772763909953707857048588293930356766647513020844808114636068638458923505340319175431685554414480,
  -639006618127251513109237497074184215169081418017649839987770698413687092432729565692688998756740757626886409462925507515441452400,
  -616042031430740123043073974715484673227232991711076662147488784369977221214922276328609010470156804172959606307006568237891189050,
  -592541426729458548851875699742195211239729512154100111796636562770208368174047727931057958332915087971101025041678529202916285390,
  -568525251892804831403585800262543058278328119385899221427903035061814128958812817787101014036570678565883012473145767029317090930,
  -544014403387695626941053755101837272156242707801297447590738564211006601233283528138274419575382360677298119795026512836558286850,
  -519030208096542372004678347142246543783514863583032305742743932517375373636076703177378716799683268731663124903935488176582678850,
  -493594404760725604304425286288100250327603686738989566814689437454317027577972247015838690224113844759882754399821983476060010570,
  -467729125065712918956264685526324095057065207327405525495441369261502219463343008828457533057589435144919517969019969814209516650,
  -441456874384277973585376333069235776387254798304368534066248144875149493615514739313094847206655586357365984811843245031674964430,
  -414800512194575537709874330297313819502228839872972854908203201667879932570854838351491216880551663721401533933809932961719709050,
  -387783232190110561499100096471843726860520656373495011884856062645434459050720196773486686894492489825054143010544865716170263810,
  -360428542098907376526582038662224809905004623433290413653368142515486379050957095119265713545807211350436452421607102667502934530,
  -332760243229438207716645548515085289027885201421082559021108978901187549196199230377822266527346954538303974094151341915960913350,
  -304802409761107954386294788645444530067970666129339088383826266978777169771816074690804927683823806613460481859731917562194886310,
  -276579367797314484599705406085463009051726650059251399754463728534352472009537182325011074194060502432523381296279378618434386600,
  -248115674199310289320046163032269253311453860859101644296146852263680732568515973823164522350918145023790802357278600545744052010,
  -219436095219282082593478779429876204014162450157268720730220821296072189173156669697115956561415079168197744167976887346145445490,
  -190565584951239646236224314410283008498518251253937987078596336932956269812781001278866692642241250154647223316465977345492999780,
  -161529263618463750924538646828145748355915662136259362114459849986873515251190088176186438666932978653930378085024489027125951770,
  -132352395716405202814920391066613002809144360020593944453556200409139948817328252824147972151748332643423908705181508221927928350,
  -103060368030052842517095646632547391206839875527693926792574478600555436181798730824790951400060868308541861892936262277192298900,
  -73678667544897552278327439488983674886448825035206969452873591931997067423374925265989814131891329273601391524680261176057739683,
  -44232859270711912810134674836107774378075768633012923534612139154612697620766942179098541224742504833265563825052673646803169742,
  -14748563997441012915940969523446394432709555961319944244761242951405464800352396619554087046992918969610949840191510487891285139,
  14748563997441012915940969523446394432709555961319944244761242951405464800352396619554087046992918969610949840191510487891285139,
  44232859270711912810134674836107774378075768633012923534612139154612697620766942179098541224742504833265563825052673646803169742,
  73678667544897552278327439488983674886448825035206969452873591931997067423374925265989814131891329273601391524680261176057739683,
  103060368030052842517095646632547391206839875527693926792574478600555436181798730824790951400060868308541861892936262277192298900,
  132352395716405202814920391066613002809144360020593944453556200409139948817328252824147972151748332643423908705181508221927928350,
  161529263618463750924538646828145748355915662136259362114459849986873515251190088176186438666932978653930378085024489027125951770,
  190565584951239646236224314410283008498518251253937987078596336932956269812781001278866692642241250154647223316465977345492999780,
  219436095219282082593478779429876204014162450157268720730220821296072189173156669697115956561415079168197744167976887346145445490,
  248115674199310289320046163032269253311453860859101644296146852263680732568515973823164522350918145023790802357278600545744052010,
  276579367797314484599705406085463009051726650059251399754463728534352472009537182325011074194060502432523381296279378618434386600,
  304802409761107954386294788645444530067970666129339088383826266978777169771816074690804927683823806613460481859731917562194886310,
  332760243229438207716645548515085289027885201421082559021108978901187549196199230377822266527346954538303974094151341915960913350,
  360428542098907376526582038662224809905004623433290413653368142515486379050957095119265713545807211350436452421607102667502934530,
  387783232190110561499100096471843726860520656373495011884856062645434459050720196773486686894492489825054143010544865716170263810,
  414800512194575537709874330297313819502228839872972854908203201667879932570854838351491216880551663721401533933809932961719709050,
  441456874384277973585376333069235776387254798304368534066248144875149493615514739313094847206655586357365984811843245031674964430,
  467729125065712918956264685526324095057065207327405525495441369261502219463343008828457533057589435144919517969019969814209516650,
  493594404760725604304425286288100250327603686738989566814689437454317027577972247015838690224113844759882754399821983476060010570,
  519030208096542372004678347142246543783514863583032305742743932517375373636076703177378716799683268731663124903935488176582678850,
  544014403387695626941053755101837272156242707801297447590738564211006601233283528138274419575382360677298119795026512836558286850,
  568525251892804831403585800262543058278328119385899221427903035061814128958812817787101014036570678565883012473145767029317090930,
  592541426729458548851875699742195211239729512154100111796636562770208368174047727931057958332915087971101025041678529202916285390,
  616042031430740123043073974715484673227232991711076662147488784369977221214922276328609010470156804172959606307006568237891189050,
  639006618127251513109237497074184215169081418017649839987770698413687092432729565692688998756740757626886409462925507515441452400,
  661415205338815832641566130462415772763909953707857048588293930356766647513020844808114636068638458923505340319175431685554414480,
  683248295360378996178162885125999004778302920067585075582100691476912552851376979569345629619467200135903789929532518563095485430,
  704486891226984290410711252163211632868505290329495921251471113785281251599410604628333880088998643553996893226501315063326358680,
  725112513243060391337516200500437945207773165920607663926644994769762637488941531488631707081486097351142941261611123536763041810,
  745107215061643081511541983901382068688214169496362086688750589724459326517059340209614526694919390408647030784604877884377156360,
  764453599299543440970046980530896325637882281096591643362724072258472221811144969481693830861458755862712924142588287855232233780,
  783134832674880384933630498488267870813354384250378175708166039142154192489006446746336991838801154815362059428545470225905405150,
  801134660653812959384863036438973190879504740782582615575822359523485755836101365444298807179814521601115969256488142837492550460,
  818437421593737754083308119921620059849128567854657039804440133087387372629509353095923836708217279168417292252963375601225580580,
  835028060370659320208381281364188233707641853026626670386377446840352488782009172930015356596055048871405049264951157774360394130,
  850892141478897099037201864094243547561021351256814182697820920838449836528972263644481215504837593472443139873091420683488745310,
  866015861591762199685411346428523077620262421435502606560914446895554190410080104664114163460395902268871254643557428592322900970,
  880386061572323628117699781708151100130677450066404290498276197592687365792037286215177972321082006479207691427066389193452572820,
  893990237923890523223821307139859701360850781416994331144036761181895822955116786774365421182481275440324660785392829126054990910,
  906816553670372741364813275931844737613985070972967398592315451575099303679493597489954080626914336218474649517638578209446977270,
  918853848657262557852609606665914971149340162344723584515701916530507011155355118992953013704548868353720829234456977236713615170,
  930091649264636846651304918659040551468880509485724452131775729170355605933223081685673408901071090443310390025060698541706146990,
  940520177524377016926890209370948642029181959542625469120829983128390731192400893350085237454794606704630749370264996322192358370,
  950130359634884006869243763204907204503670874775137587314067891097587503788542737875452535575335032475431542209589584894824407660,
  958913833868248448754981625367902362247720264490935436852981362044925024722315543279690477106816993811463554099680066875813725360,
  966862957867899415836995239006367705885666632923224786835089356269077918094341159185685444954167832449057638510318816654794507800,
  973970815341230469497425334259304011848831567401209497434114087900716786343799607236708660520246509661304162714138465376773608010,
  980231222167392157734507808648590715068161915070198286680086031371206780022841139454630083575070148174591331201803085939425247180,
  985638731983841774389809096535512713399995845106019589118881760739531418608822715824149615266747106803270480525123931825334754000,
  990188641454026682414764531594875654348886655244327246903693384267354801023872867742862686755823302681563727980582007877191832920,
  993876995949310612434691056841933837085875109857522389990177949867655735559880113012010143040977841764144229975057198738997077710,
  996700598969393002704593666220368995908150170141118127986870604928213404945408277326094645721175301985976611785846671021014726570,
  998657047000421422869261089780696537610845530645758120653344016576432020535310912918935473795447100447415121567159048067799488540,
  999745072725757546707659659754832748548377969215208141451651757824129551020025650780728556141836408334396750391070051055358233410]

/-- `case 106` (Util/Gauss_Legendre_Nodes_and_Weights.hpp:27844-28330), `weights`. -/
def weights106 : List Nat := [
  654197911024732930569490759967884281111555052812183787609973255428872730999795951129738300000000000000000000000000000000000000,
  1522295802314232111915338115907550111065725018425096061872772488983495332133480083932057000000000000000000000000000000000000000,
  2390355691141865682518930422313645282697586853742252433339289078629287241060534413800440000000000000000000000000000000000000000,
  3256447513715215187521437799935928534934471464226200627691298780320604205601949668500920000000000000000000000000000000000000000,
  4119728354738207506846791382209411111395377269298885822440616998433117755901947132761020000000000000000000000000000000000000000,
  4979431350480983051345633474618419037158826488043553798385343495233943420844920248393730000000000000000000000000000000000000000,
  5834804303401561652064709306923038589320715520892054699130485620497105832253525462557230000000000000000000000000000000000000000,
  6685101535310014098152678832616986997285518412505302453514775279423963194728275075232670000000000000000000000000000000000000000,
  7529582631812714627621641817166463530259467280255319420064598312547426746108498751983050000000000000000000000000000000000000000,
  8367512550381964115710636618979441791813882966941838727799127518461530341263757468391310000000000000000000000000000000000000000,
  9198162078747490022282403583284036837189723133808184897646686678596515411415487234245552000000000000000000000000000000000000000,
  10020808399328509191377365799139571321110664717752641015827118305962785648818161842575824000000000000000000000000000000000000000,
  10834735688093302135388538855503783733333241267217133753327108116464945550311610799942817000000000000000000000000000000000000000,
  11639235723377785795524967674616989515913076431091393711621074795492195284670975148185826000000000000000000000000000000000000000,
  12433608495111442354153312855427069583941204978691969066204422800078437580569056389827523500000000000000000000000000000000000000,
  13217162810199658029667935363238173066681768069095819094694743110778831827418565251675523200000000000000000000000000000000000000,
  13989216891882217504587337708536594612156296297881312211174470507613654424774058337297859600000000000000000000000000000000000000,
  14749098971764083659538002641030249727860768481816981052788374045073871613517773364789302630000000000000000000000000000000000000,
  15496147873612808334492523428177580597306859985145213642413106059824554321944205522442201620000000000000000000000000000000000000,
  16229713588210454075805627115231267066630644604935268368241379887873264717157283304935933322000000000000000000000000000000000000,
  16949157838648725095712649176360015958314899175149270827843925881046772846771041547404948880000000000000000000000000000000000000,
  17653854635512770820333953803514083904156525406030609123273673328426827971476856370852836605600000000000000000000000000000000000,
  18343190821434115054281308414770828281936867852349336376900331855220631672702473841794814840310000000000000000000000000000000000,
  19016566604517051563770476555578394334508152531777349210850017840825330599889822420503201297540000000000000000000000000000000000,
  19673396080160956089424783067281539965820397551547848004176218241003263384322728554195427636882000000000000000000000000000000000,
  20313107740816046132542782237304966292202819231305125731649408274548137138174336179943500209243300000000000000000000000000000000,
  20935144973223639638804065901605760125152751568897124329153300087160125443962849203319911137812600000000000000000000000000000000,
  21538966542704724964183767240417052045774631136918491526193911352382598740501892536439302885365380000000000000000000000000000000,
  22124047064073107043388516912047953216334870284836963659829002339160357508193968672879747269978366000000000000000000000000000000,
  22689877458761794805721406240747867971095651264217290038650047829050728810676150100729332582105050100000000000000000000000000000,
  23235965397763790156354482824952658224122215494814652160914760584509465345309404279659738983252546370000000000000000000000000000,
  23761835730001114200555036525953111213907456947335397369871443778934872968588597032012623696810388949000000000000000000000000000,
  24267030895748809888285535387337510050937875640031902162899955565502789760216616035082899362380128953400000000000000000000000000,
  24751111324753817750479581104193259115655142786183693994643167863244935763798255603730149636268411498710000000000000000000000000,
  25213655818702045094075212391400099154581693136160910619988914352284541796612312512662194159796922246678000000000000000000000000,
  25654261917700642563993589278365375886988371022921254835728279737674506643364299193107087045364565762735400000000000000000000000,
  26072546250456463519942602762206773108930390708258448054692752217856420556305800305589190965537023827729060000000000000000000000,
  26468144867845905770012479807933074166037249170634006539653347310907014849987497417652117510965990886844815000000000000000000000,
  26840713559585813994947346876257720965907646081896248886691047879352169851599892932702853145627214990659284900000000000000000000,
  27189928153729845172132800066295082503397032991490521246992632885256391197177516278369724469835481999013142580000000000000000000,
  27515484798729657782343468250108854587089911103319870254504173541471508315370657203081141950540029422244537632000000000000000000,
  27817100227815467022398674316402019019391500673591969113213380319023137813776112191056659400338536294412234663900000000000000000,
  28094512005465900487511840451970928201803927579800733213734985022755651987921323851332171875421085993896389165211000000000000000,
  28347478755752679177348136914051395095825592137943186661124473352625610911085551449197470482738989382691790938890400000000000000,
  28575780372361424186458627980215435109532313278776304145588536696065400719744677302487173015796556173053997208494260000000000000,
  28779218210105836721472437714268833195852420453789020696586664317862483534238671316772540921675886933682268089653179000000000000,
  28957615257768604549315060535769569416057638089443859123928393319255108779690200865564057047634436915520994336861889570000000000,
  29110816292118637816079406268563601244669992766286220599630653286906485033284130264079616206509987406258299143493808793000000000,
  29238688012970617399421610811479115078075824615003546384431692470378346430537308754058200725402499605897902666252027973580000000,
  29341119159169335430969600432113421211389601481315618049190859932637529041587078716387719169544384716809761720514254041468000000,
  29418020605397906082618909178659112918373899981506696259213421930091200396592010286675530065771872430386041439414523466385790000,
  29469325439725610776080029690370833407241993164773784359869294437116010826998911213416149219031416291659549202037184049462089000,
  29494989021827901181954517326679669699765370397114141792600567033745240178047194114659436702078585075044294505089075703118751660,
  29494989021827901181954517326679669699765370397114141792600567033745240178047194114659436702078585075044294505089075703118751660,
  29469325439725610776080029690370833407241993164773784359869294437116010826998911213416149219031416291659549202037184049462089000,
  29418020605397906082618909178659112918373899981506696259213421930091200396592010286675530065771872430386041439414523466385790000,
  29341119159169335430969600432113421211389601481315618049190859932637529041587078716387719169544384716809761720514254041468000000,
  29238688012970617399421610811479115078075824615003546384431692470378346430537308754058200725402499605897902666252027973580000000,
  29110816292118637816079406268563601244669992766286220599630653286906485033284130264079616206509987406258299143493808793000000000,
  28957615257768604549315060535769569416057638089443859123928393319255108779690200865564057047634436915520994336861889570000000000,
  28779218210105836721472437714268833195852420453789020696586664317862483534238671316772540921675886933682268089653179000000000000,
  28575780372361424186458627980215435109532313278776304145588536696065400719744677302487173015796556173053997208494260000000000000,
  28347478755752679177348136914051395095825592137943186661124473352625610911085551449197470482738989382691790938890400000000000000,
  28094512005465900487511840451970928201803927579800733213734985022755651987921323851332171875421085993896389165211000000000000000,
  27817100227815467022398674316402019019391500673591969113213380319023137813776112191056659400338536294412234663900000000000000000,
  27515484798729657782343468250108854587089911103319870254504173541471508315370657203081141950540029422244537632000000000000000000,
  27189928153729845172132800066295082503397032991490521246992632885256391197177516278369724469835481999013142580000000000000000000,
  26840713559585813994947346876257720965907646081896248886691047879352169851599892932702853145627214990659284900000000000000000000,
  26468144867845905770012479807933074166037249170634006539653347310907014849987497417652117510965990886844815000000000000000000000,
  26072546250456463519942602762206773108930390708258448054692752217856420556305800305589190965537023827729060000000000000000000000,
  25654261917700642563993589278365375886988371022921254835728279737674506643364299193107087045364565762735400000000000000000000000,
  25213655818702045094075212391400099154581693136160910619988914352284541796612312512662194159796922246678000000000000000000000000,
  24751111324753817750479581104193259115655142786183693994643167863244935763798255603730149636268411498710000000000000000000000000,
  24267030895748809888285535387337510050937875640031902162899955565502789760216616035082899362380128953400000000000000000000000000,
  23761835730001114200555036525953111213907456947335397369871443778934872968588597032012623696810388949000000000000000000000000000,
  23235965397763790156354482824952658224122215494814652160914760584509465345309404279659738983252546370000000000000000000000000000,
  22689877458761794805721406240747867971095651264217290038650047829050728810676150100729332582105050100000000000000000000000000000,
  22124047064073107043388516912047953216334870284836963659829002339160357508193968672879747269978366000000000000000000000000000000,
  21538966542704724964183767240417052045774631136918491526193911352382598740501892536439302885365380000000000000000000000000000000,
  20935144973223639638804065901605760125152751568897124329153300087160125443962849203319911137812600000000000000000000000000000000,
  20313107740816046132542782237304966292202819231305125731649408274548137138174336179943500209243300000000000000000000000000000000,
  19673396080160956089424783067281539965820397551547848004176218241003263384322728554195427636882000000000000000000000000000000000,
  19016566604517051563770476555578394334508152531777349210850017840825330599889822420503201297540000000000000000000000000000000000,
  18343190821434115054281308414770828281936867852349336376900331855220631672702473841794814840310000000000000000000000000000000000,
  17653854635512770820333953803514083904156525406030609123273673328426827971476856370852836605600000000000000000000000000000000000,
  16949157838648725095712649176360015958314899175149270827843925881046772846771041547404948880000000000000000000000000000000000000,
  16229713588210454075805627115231267066630644604935268368241379887873264717157283304935933322000000000000000000000000000000000000,
  15496147873612808334492523428177580597306859985145213642413106059824554321944205522442201620000000000000000000000000000000000000,
  14749098971764083659538002641030249727860768481816981052788374045073871613517773364789302630000000000000000000000000000000000000,
  13989216891882217504587337708536594612156296297881312211174470507613654424774058337297859600000000000000000000000000000000000000,
  13217162810199658029667935363238173066681768069095819094694743110778831827418565251675523200000000000000000000000000000000000000,
  12433608495111442354153312855427069583941204978691969066204422800078437580569056389827523500000000000000000000000000000000000000,
  11639235723377785795524967674616989515913076431091393711621074795492195284670975148185826000000000000000000000000000000000000000,
  10834735688093302135388538855503783733333241267217133753327108116464945550311610799942817000000000000000000000000000000000000000,
  10020808399328509191377365799139571321110664717752641015827118305962785648818161842575824000000000000000000000000000000000000000,
  9198162078747490022282403583284036837189723133808184897646686678596515411415487234245552000000000000000000000000000000000000000,
  8367512550381964115710636618979441791813882966941838727799127518461530341263757468391310000000000000000000000000000000000000000,
  7529582631812714627621641817166463530259467280255319420064598312547426746108498751983050000000000000000000000000000000000000000,
  6685101535310014098152678832616986997285518412505302453514775279423963194728275075232670000000000000000000000000000000000000000,
  5834804303401561652064709306923038589320715520892054699130485620497105832253525462557230000000000000000000000000000000000000000,
  4979431350480983051345633474618419037158826488043553798385343495233943420844920248393730000000000000000000000000000000000000000,
  4119728354738207506846791382209411111395377269298885822440616998433117755901947132761020000000000000000000000000000000000000000,
  3256447513715215187521437799935928534934471464226200627691298780320604205601949668500920000000000000000000000000000000000000000,
  2390355691141865682518930422313645282697586853742252433339289078629287241060534413800440000000000000000000000000000000000000000,
  1522295802314232111915338115907550111065725018425096061872772488983495332133480083932057000000000000000000000000000000000000000,
  654197911024732930569490759967884281111555052812183787609973255428872730999795951129738300000000000000000000000000000000000000]

/-- `case 107` (Util/Gauss_Legendre_Nodes_and_Weights.hpp:28332-28820), `nodes`. -/
def nodes107 : List Int := [
  -999749793268164977652399475427399211440774566440964165086007681569730556492619983224973741672894560573084345192740913316493712550,
  -998681910318344368116355194146628209095507590512475352213074487106152093836323947613680440639157048780296918976899855300932378450,
  -996761664228031467389798770805049691192650427769505077797385976021148386364488047765278207118578880618319047603337671260947526570,
  -993990267933654565897274880492864397522977456776720516917162995105682774453001424828355626806935174697057079792963461073583829670,
  -990370035860437707290574020079229404112209296948600613598913224394208522060137842832947812219727761776321565243266347040141626800,
  -985904047144265362136758572575914584327917992916054488254574950993356305736191439611259405572170295797697647650527206947014309530,
  -980596111519516400527643693220490234261853565071399361566356766887158781068781504132559821508214300014672622422272815183350287740,
  -974450760196896832322565218940370104218716937331673839043550729704816122788217143318026261186193066484001095520052938932400183020,
  -967473240433748439814427729005652227926243285796717009393154297295005824098279619385483019235142519352108593670687753272899835280,
  -959669510533953464467243574340029304317376531295828277187645746243522074790990012361080442133865824807155630787207606934958793360,
  -951046234557681985113404197346524167399681036184797867471180396242375506490176969755660247520888945766604075486478915795344679340,
  -941610776542103651402284642793186481550096348812701979282295611053606170241298157232983030818210915210848625507902118249402555620,
  -931371194170371473137446926652483422193194929979437415190811771546343840748185039033144324198079006542613627347888944137415097260,
  -920336231868754270665521588339378996834081835649802752163150166008242922199833504496810875423434784695044818943553892788922025120,
  -908515313327165600671202535706765411950768667877029058044292114499595297352333231383483720870004790760442910839243065031146738650,
  -895918533444664096083609947588974922198880842446157333959927202752588897191642002410770797635207650426901884618461501606688420170,
  -882556649704478878381720538582405522540763089342013374440304348408210786062570475548076167267365008719398786671563838464998109050,
  -868441072984737954479738591668262932487177313091239345779469373449857733539095247665281398524289058763210377340028180797560917690,
  -853583857812110619772782956368451329028926470950444825114905845273883214166105849197141868964573817173950932260956562763844730130,
  -837997692066331633597139715021835182256892817828271170652325767907832730006785865468870820826649475107600019042968909620203531060,
  -821695886144193516829970781874377156777590045599502443672042878815395012479991039207027399444747202894912828747311806245171314910,
  -804692361592137725764454711168109313173332502038685278210067909967817842238706010073101800066478423966229804863126704668864219530,
  -787001639217076651706670176630589781213152767108843079439136111900361726577510744598854590726548597767220968488480601076973715610,
  -768638826685551927387238638394150295359766148906334117766795254895141056207206259516080340780965084198116309647776849200608516150,
  -749619605621788409175268374991826113644368951153318533100545208975992549875644287979270782548007379077478821022103464043936672960,
  -729960218215641653621866575517774443708212819639673338827692303878426646363948026961362765259719009281456796766732671777323812660,
  -709677453351861923714469810537018426440548039273150248716586031104061023957318730754267824667294530570601778894440874771084143780,
  -688788632272510870314904855635025612727847707334879581766327928578673445041607548756494379440492617977298026954401651168366009970,
  -667311593784768565539979903921914312020557086393481322880335612335218114515974969254088042509630613957926945295075317572457372960,
  -645264679026758707183591858459999472932320756990704957881663663484856244083306999204821435306592232854695300740216765545300501710,
  -622666715804398562461645811635666605584095802333596744842588409473808565200720330681201656893350004976559024848302454474879591650,
  -599537002512647458946021008453133367861268323545023457225496067767252990403525425728230821260833138870325172191931405027417755160,
  -575895291654883179484840262400287709968994401193848411226615380618643725877049290898366847908493272338305599497962929530239289650,
  -551761772974479258823928728811437127353989316291436554740512371196433487641825888191471884242725173767585128970467078788957716940,
  -527157056212987676085384120819000637996953937586840757234832459313259002039828106781768183455396096978046760655758704915906278200,
  -502102153509650544322868328182357299728012424768159053177153141781301267696417242783181927191461026917251239621343284748332082260,
  -476618461457270869474084912038384929614955887588902114924867196601467521714259775429802524162044704345620538154241790394475394270,
  -450727742829766042265146699561273971825560058825633361648538092967452066547924484858186846397994786839332346293679124176476102610,
  -424452107997008199653224106479027066802735220657602609008542542095349639568418763535739025378633335347398966546306946794815219490,
  -397813996042822716407505577353910933391505457217289711342737372057813670480759681153781861071448648627790890088732714225277475540,
  -370836155602269640483245972928890861515346975260146392710584764029635662927946263687211432955946190115024782553905651051944696710,
  -343541625434572655837548653143780197068938622943634031973563555368321641289270061158203078246806183605749318642166826369898236640,
  -315953714748285941711124794004408112290549586610093601483016565139468810703503236513636584363419114502999566117928215222818210200,
  -288095983295500907675927422028094544504112585135006230805384205232998768107198944049325404325381031450923600684587808948882591160,
  -259992221252092039929186578844200358401809437866225056463274096827084286171020797607161090320805902225501479931439218240489169890,
  -231666428901183829217563258248741729546510837678295563156520362294578361855869030114494576270405841699032784802945968437368176670,
  -203142796137188809295895776660016979889354618638546074265761722710856599809022250993337901127859880988127618346890523216939995910,
  -174445681807919974154819466357231393765953274182004814675949888253516600636859074923192696968194794005078873563965257480797811200,
  -145599592912419132062302334606870024272648879821589046976544063080564452207305385197705465308832089179473859783796908445629947760,
  -116629163672265977064132344231477494429414131933151534111961702009238339940762785839417228782874394754571470746988016624766109450,
  -87559134494240709055145244316126047460181089407460050726082714003957084043405525780937499210314124733222591898920921150799652540,
  -58414330842305819826451864148322001413693447094106475236723361124705473561074670874522871579230251912540675258817740954335230403,
  -29219642036950105552302105987701952924637197180966780472982725320023164705060340308824100499304027480879425067005631247997833250,
  0,
  29219642036950105552302105987701952924637197180966780472982725320023164705060340308824100499304027480879425067005631247997833250,
  58414330842305819826451864148322001413693447094106475236723361124705473561074670874522871579230251912540675258817740954335230403,
  87559134494240709055145244316126047460181089407460050726082714003957084043405525780937499210314124733222591898920921150799652540,
  116629163672265977064132344231477494429414131933151534111961702009238339940762785839417228782874394754571470746988016624766109450,
  145599592912419132062302334606870024272648879821589046976544063080564452207305385197705465308832089179473859783796908445629947760,
  174445681807919974154819466357231393765953274182004814675949888253516600636859074923192696968194794005078873563965257480797811200,
  203142796137188809295895776660016979889354618638546074265761722710856599809022250993337901127859880988127618346890523216939995910,
  231666428901183829217563258248741729546510837678295563156520362294578361855869030114494576270405841699032784802945968437368176670,
  259992221252092039929186578844200358401809437866225056463274096827084286171020797607161090320805902225501479931439218240489169890,
  288095983295500907675927422028094544504112585135006230805384205232998768107198944049325404325381031450923600684587808948882591160,
  315953714748285941711124794004408112290549586610093601483016565139468810703503236513636584363419114502999566117928215222818210200,
  343541625434572655837548653143780197068938622943634031973563555368321641289270061158203078246806183605749318642166826369898236640,
  370836155602269640483245972928890861515346975260146392710584764029635662927946263687211432955946190115024782553905651051944696710,
  397813996042822716407505577353910933391505457217289711342737372057813670480759681153781861071448648627790890088732714225277475540,
  424452107997008199653224106479027066802735220657602609008542542095349639568418763535739025378633335347398966546306946794815219490,
  450727742829766042265146699561273971825560058825633361648538092967452066547924484858186846397994786839332346293679124176476102610,
  476618461457270869474084912038384929614955887588902114924867196601467521714259775429802524162044704345620538154241790394475394270,
  502102153509650544322868328182357299728012424768159053177153141781301267696417242783181927191461026917251239621343284748332082260,
  527157056212987676085384120819000637996953937586840757234832459313259002039828106781768183455396096978046760655758704915906278200,
  551761772974479258823928728811437127353989316291436554740512371196433487641825888191471884242725173767585128970467078788957716940,
  575895291654883179484840262400287709968994401193848411226615380618643725877049290898366847908493272338305599497962929530239289650,
  599537002512647458946021008453133367861268323545023457225496067767252990403525425728230821260833138870325172191931405027417755160,
  622666715804398562461645811635666605584095802333596744842588409473808565200720330681201656893350004976559024848302454474879591650,
  645264679026758707183591858459999472932320756990704957881663663484856244083306999204821435306592232854695300740216765545300501710,
  667311593784768565539979903921914312020557086393481322880335612335218114515974969254088042509630613957926945295075317572457372960,
  688788632272510870314904855635025612727847707334879581766327928578673445041607548756494379440492617977298026954401651168366009970,
  709677453351861923714469810537018426440548039273150248716586031104061023957318730754267824667294530570601778894440874771084143780,
  729960218215641653621866575517774443708212819639673338827692303878426646363948026961362765259719009281456796766732671777323812660,
  749619605621788409175268374991826113644368951153318533100545208975992549875644287979270782548007379077478821022103464043936672960,
  768638826685551927387238638394150295359766148906334117766795254895141056207206259516080340780965084198116309647776849200608516150,
  787001639217076651706670176630589781213152767108843079439136111900361726577510744598854590726548597767220968488480601076973715610,
  804692361592137725764454711168109313173332502038685278210067909967817842238706010073101800066478423966229804863126704668864219530,
  821695886144193516829970781874377156777590045599502443672042878815395012479991039207027399444747202894912828747311806245171314910,
  837997692066331633597139715021835182256892817828271170652325767907832730006785865468870820826649475107600019042968909620203531060,
  853583857812110619772782956368451329028926470950444825114905845273883214166105849197141868964573817173950932260956562763844730130,
  868441072984737954479738591668262932487177313091239345779469373449857733539095247665281398524289058763210377340028180797560917690,
  882556649704478878381720538582405522540763089342013374440304348408210786062570475548076167267365008719398786671563838464998109050,
  895918533444664096083609947588974922198880842446157333959927202752588897191642002410770797635207650426901884618461501606688420170,
  908515313327165600671202535706765411950768667877029058044292114499595297352333231383483720870004790760442910839243065031146738650,
  920336231868754270665521588339378996834081835649802752163150166008242922199833504496810875423434784695044818943553892788922025120,
  931371194170371473137446926652483422193194929979437415190811771546343840748185039033144324198079006542613627347888944137415097260,
  941610776542103651402284642793186481550096348812701979282295611053606170241298157232983030818210915210848625507902118249402555620,
  951046234557681985113404197346524167399681036184797867471180396242375506490176969755660247520888945766604075486478915795344679340,
  959669510533953464467243574340029304317376531295828277187645746243522074790990012361080442133865824807155630787207606934958793360,
  967473240433748439814427729005652227926243285796717009393154297295005824098279619385483019235142519352108593670687753272899835280,
  974450760196896832322565218940370104218716937331673839043550729704816122788217143318026261186193066484001095520052938932400183020,
  980596111519516400527643693220490234261853565071399361566356766887158781068781504132559821508214300014672622422272815183350287740,
  985904047144265362136758572575914584327917992916054488254574950993356305736191439611259405572170295797697647650527206947014309530,
  990370035860437707290574020079229404112209296948600613598913224394208522060137842832947812219727761776321565243266347040141626800,
  993990267933654565897274880492864397522977456776720516917162995105682774453001424828355626806935174697057079792963461073583829670,
  996761664228031467389798770805049691192650427769505077797385976021148386364488047765278207118578880618319047603337671260947526570,
  998681910318344368116355194146628209095507590512475352213074487106152093836323947613680440639157048780296918976899855300932378450,
  999749793268164977652399475427399211440774566440964165086007681569730556492619983224973741672894560573084345192740913316493712550]

/-- `case 107` (Util/Gauss_Legendre_Nodes_and_Weights.hpp:28332-28820), `weights`. -/
def weights107 : List Nat := [
  642084494792885286653827879589106806021622711576866195705997473937704988094424473283945000000000000000000000000000000000000000,
  1494118343140871566502346826815824381281854497733313254509706701680678822368470566363832000000000000000000000000000000000000000,
  2346138950711691914443377921537441102927852184052352654673670248343301772799294325043870000000000000000000000000000000000000000,
  3196265693781843366361204290190254779221137746294363038238039359560729731712480500763410000000000000000000000000000000000000000,
  4043684899837609557173411603757941532543411710190003924822108016668512085187660841052180000000000000000000000000000000000000000,
  4887657450877471718200093651031435729871248500254349708392294045144395094450895920487740000000000000000000000000000000000000000,
  5727458511354651700014466383358005050001446080022183242713992000431553764295288434411680000000000000000000000000000000000000000,
  6562369508909581243084645000975332294039841806664283731383065123433815909740041692636220000000000000000000000000000000000000000,
  7391676878940906828596983274996542958225921634137072824215738123964792601534302523787300000000000000000000000000000000000000000,
  8214672147754626320167749049098373691828596672035715678591109073882555661797024965318200000000000000000000000000000000000000000,
  9030652359782615294104754068454033013499396506236576887627684482246911692229178787775400000000000000000000000000000000000000000,
  9838920609142476654278283830980237478758479311360787779441090238358435822754655226727990000000000000000000000000000000000000000,
  10638786605281020060460629382970218408724769627881489621284601661864348841205910775716075000000000000000000000000000000000000000,
  11429567248714823129922320660440079126866678963441962846311306602201103253696633852016417000000000000000000000000000000000000000,
  12210587207521584591880743835044607456850209121146018123625470928149059233484941433944840000000000000000000000000000000000000000,
  12981179490438109711585371441785197893991695295580690572370668699376395084823944495358469700000000000000000000000000000000000000,
  13740686014452676883714558646130836079493779027209635687951564654066908582073400195983920700000000000000000000000000000000000000,
  14488458165639220258759828356121330020087167262930477045132538712424319702401378927162199400000000000000000000000000000000000000,
  15223857352371104852670578100364060045751860545419446813593949039289736266512509325107206880000000000000000000000000000000000000,
  15946255550241689885338264384504920141795680458416171903798972094008923027317830770375899690000000000000000000000000000000000000,
  16655035838117266047621994166508387398183106197206941097865442411244434575486079090110895733000000000000000000000000000000000000,
  17349592924803075291363242639405762369669297284239020642642971200732132507963768793673530562000000000000000000000000000000000000,
  18029333665836843278467794548486131618940764228243150288037035208700804495217239235357360969600000000000000000000000000000000000,
  18693677569947051440711344836655730571541925841390526960074776911471601525200550494349574627950000000000000000000000000000000000,
  19342057294730273125023904062800052320162809085780925838390804535598166029167930582844680158370000000000000000000000000000000000,
  19973919131115997009339507300036417967710458967903974288939764173654906341498831453650151157869000000000000000000000000000000000,
  20588723476199900802103411545288891635395038169231202623250459019977347368648432798318116256066200000000000000000000000000000000,
  21185945294038308135320568364043259726124801274033419265092123718125772647861793255021880302839350000000000000000000000000000000,
  21765074564008003808272865848666235561773103002291839542626379186366338031875883129975744540620660000000000000000000000000000000,
  22325616716346949548553697189453599222612733492192982159474128631211761957715309650625204952651483000000000000000000000000000000,
  22867093054502879925933838827940638190378546189736624001615011146094056285226689521440742133362949200000000000000000000000000000,
  23389041163928350243333126014027975537165206299137888749915799661850156870824454454374954368193592600000000000000000000000000000,
  23891015306972603221502934050146141351520662566501357931343116338116938333509776136969838039632615757000000000000000000000000000,
  24372586803532645407942445341949136972352780295653301525554141688480022155116468288358281604507548667500000000000000000000000000,
  24833344397138190423332422915619503111730902003694791935962209519227437920187445545081629065324328319700000000000000000000000000,
  25272894606157638973121725401993494587522809312265922090976777017955398746733637022332179744398194190631000000000000000000000000,
  25690862059825024192408261052653553464074255811151339654666360418344600160779955383097426080076351060945600000000000000000000000,
  26086889818800851041926946631296402639916696572624447330662810145697820509995941719540892677803426382900340000000000000000000000,
  26460639679992993465300339024702547231538706788208047216976778546513684522477092972350777020427578486752014000000000000000000000,
  26811792465377274576025229574073793904871691493147390380520613189610764071226137501691024169857232694723114700000000000000000000,
  27140048294571033858131368284558771826537247308209890209003860852357244653712503670845644223666648530058318794000000000000000000,
  27445126840926871010463224846965733093065626985835289428552111741992565377066123583417250987067701023546504484800000000000000000,
  27726767570927837807149388136871759900893895105797963402984612970161814005027120200153556394153577545863025458440000000000000000,
  27984729966679615888281041326329253661904214819370356239062668233645545087611155602161244659982160566264246726838000000000000000,
  28218793731309658073631867391270592821233965713378035591096092861939960422958574496640323310554347269339131566071440000000000000,
  28428758977097871654664196610479548792473581127916013378115990538065864885058620037655042283431794984644882296997702000000000000,
  28614446396178171972532410416455607399001772900869116981226115456074680053586913531426246948902077460196990654869702100000000000,
  28775697413665121038695471941468010276728212652253507882801259024238713829559701706877865400903622088216211510376800909000000000,
  28912374323074876437497217968638803119166756387436212497221932333143044818780239712280733221204863275456796520052023211000000000,
  29024360403924797560329068037599632117676923902762198286182922889671505335974367584882440802812462328358367914855627000249000000,
  29111560021411276529854221317702948574756057335149765133300474148225716154766950857473645525716671549360296556626289433657200000,
  29173898708080667047174127488624327390027035998155800107116070545342803513924951759771497315216759579131262138348826426558982000,
  29211323227423562813973707683539676949325903489140008679643971067963884379603141082698750748074949821112265327359639599430167700,
  29223801619338115052207301251203801404479723473013974249441694778336660974351902222468143992987839157888957623112443341834661162,
  29211323227423562813973707683539676949325903489140008679643971067963884379603141082698750748074949821112265327359639599430167700,
  29173898708080667047174127488624327390027035998155800107116070545342803513924951759771497315216759579131262138348826426558982000,
  29111560021411276529854221317702948574756057335149765133300474148225716154766950857473645525716671549360296556626289433657200000,
  29024360403924797560329068037599632117676923902762198286182922889671505335974367584882440802812462328358367914855627000249000000,
  28912374323074876437497217968638803119166756387436212497221932333143044818780239712280733221204863275456796520052023211000000000,
  28775697413665121038695471941468010276728212652253507882801259024238713829559701706877865400903622088216211510376800909000000000,
  28614446396178171972532410416455607399001772900869116981226115456074680053586913531426246948902077460196990654869702100000000000,
  28428758977097871654664196610479548792473581127916013378115990538065864885058620037655042283431794984644882296997702000000000000,
  28218793731309658073631867391270592821233965713378035591096092861939960422958574496640323310554347269339131566071440000000000000,
  27984729966679615888281041326329253661904214819370356239062668233645545087611155602161244659982160566264246726838000000000000000,
  27726767570927837807149388136871759900893895105797963402984612970161814005027120200153556394153577545863025458440000000000000000,
  27445126840926871010463224846965733093065626985835289428552111741992565377066123583417250987067701023546504484800000000000000000,
  27140048294571033858131368284558771826537247308209890209003860852357244653712503670845644223666648530058318794000000000000000000,
  26811792465377274576025229574073793904871691493147390380520613189610764071226137501691024169857232694723114700000000000000000000,
  26460639679992993465300339024702547231538706788208047216976778546513684522477092972350777020427578486752014000000000000000000000,
  26086889818800851041926946631296402639916696572624447330662810145697820509995941719540892677803426382900340000000000000000000000,
  25690862059825024192408261052653553464074255811151339654666360418344600160779955383097426080076351060945600000000000000000000000,
  25272894606157638973121725401993494587522809312265922090976777017955398746733637022332179744398194190631000000000000000000000000,
  24833344397138190423332422915619503111730902003694791935962209519227437920187445545081629065324328319700000000000000000000000000,
  24372586803532645407942445341949136972352780295653301525554141688480022155116468288358281604507548667500000000000000000000000000,
  23891015306972603221502934050146141351520662566501357931343116338116938333509776136969838039632615757000000000000000000000000000,
  23389041163928350243333126014027975537165206299137888749915799661850156870824454454374954368193592600000000000000000000000000000,
  22867093054502879925933838827940638190378546189736624001615011146094056285226689521440742133362949200000000000000000000000000000,
  22325616716346949548553697189453599222612733492192982159474128631211761957715309650625204952651483000000000000000000000000000000,
  21765074564008003808272865848666235561773103002291839542626379186366338031875883129975744540620660000000000000000000000000000000,
  21185945294038308135320568364043259726124801274033419265092123718125772647861793255021880302839350000000000000000000000000000000,
  20588723476199900802103411545288891635395038169231202623250459019977347368648432798318116256066200000000000000000000000000000000,
  19973919131115997009339507300036417967710458967903974288939764173654906341498831453650151157869000000000000000000000000000000000,
  19342057294730273125023904062800052320162809085780925838390804535598166029167930582844680158370000000000000000000000000000000000,
  18693677569947051440711344836655730571541925841390526960074776911471601525200550494349574627950000000000000000000000000000000000,
  18029333665836843278467794548486131618940764228243150288037035208700804495217239235357360969600000000000000000000000000000000000,
  17349592924803075291363242639405762369669297284239020642642971200732132507963768793673530562000000000000000000000000000000000000,
  16655035838117266047621994166508387398183106197206941097865442411244434575486079090110895733000000000000000000000000000000000000,
  15946255550241689885338264384504920141795680458416171903798972094008923027317830770375899690000000000000000000000000000000000000,
  15223857352371104852670578100364060045751860545419446813593949039289736266512509325107206880000000000000000000000000000000000000,
  14488458165639220258759828356121330020087167262930477045132538712424319702401378927162199400000000000000000000000000000000000000,
  13740686014452676883714558646130836079493779027209635687951564654066908582073400195983920700000000000000000000000000000000000000,
  12981179490438109711585371441785197893991695295580690572370668699376395084823944495358469700000000000000000000000000000000000000,
  12210587207521584591880743835044607456850209121146018123625470928149059233484941433944840000000000000000000000000000000000000000,
  11429567248714823129922320660440079126866678963441962846311306602201103253696633852016417000000000000000000000000000000000000000,
  10638786605281020060460629382970218408724769627881489621284601661864348841205910775716075000000000000000000000000000000000000000,
  9838920609142476654278283830980237478758479311360787779441090238358435822754655226727990000000000000000000000000000000000000000,
  9030652359782615294104754068454033013499396506236576887627684482246911692229178787775400000000000000000000000000000000000000000,
  8214672147754626320167749049098373691828596672035715678591109073882555661797024965318200000000000000000000000000000000000000000,
  7391676878940906828596983274996542958225921634137072824215738123964792601534302523787300000000000000000000000000000000000000000,
  6562369508909581243084645000975332294039841806664283731383065123433815909740041692636220000000000000000000000000000000000000000,
  5727458511354651700014466383358005050001446080022183242713992000431553764295288434411680000000000000000000000000000000000000000,
  4887657450877471718200093651031435729871248500254349708392294045144395094450895920487740000000000000000000000000000000000000000,
  4043684899837609557173411603757941532543411710190003924822108016668512085187660841052180000000000000000000000000000000000000000,
  3196265693781843366361204290190254779221137746294363038238039359560729731712480500763410000000000000000000000000000000000000000,
  2346138950711691914443377921537441102927852184052352654673670248343301772799294325043870000000000000000000000000000000000000000,
  1494118343140871566502346826815824381281854497733313254509706701680678822368470566363832000000000000000000000000000000000000000,
  642084494792885286653827879589106806021622711576866195705997473937704988094424473283945000000000000000000000000000000000000000]

/-- `case 108` (Util/Gauss_Legendre_Nodes_and_Weights.hpp:28822-29316), `nodes`. -/
def nodes108 : List Int := [
  -999754383899439767571526368922549896880606364160632164688663412225140719009880058839925678829255276217910112239504331490826263410,
  -998706089548479825415612043180378026871710412966204866136493500978837577214522409416109765713920607102465148745622628466581322150,
  -996821050049220361023804588947837440536563426279048659885306916103427621576813354195690106956963627644325229084810453626188553720,
  -994100426572366085639974340092973001832002827427910182859580365233246247043895172401479759683595832007555366331012950167926383670,
  -990546448517270881729994300566077198300426513121094948592596829230848124943493574030669450587756995682458691212485577363974307600,
  -986162082985255844436706819849945619161083932398679463513293120159274114636269554807895621595961453541376617283854936077287937840,
  -980951001387464542237033257328203662164656172953282726737179575954760290998045858037261167988906533423526236889378620815244434770,
  -974917570606093407558546509233127114185190360976937268677366152968315924565293281536289210711295497127694235004066347440526911690,
  -968066847802107571184125259344389321061957255817088800517515048124368947532874544422319108189848493634592688229986280791268009750,
  -960404575666256925952678149479751828303118218234131221431046631812231794522899210540182854961884060634129469210763998113404878910,
  -951937177406643110178407494758939165835738287298027912202542927393172792871787286359478985648502338390242864358684908553635925570,
  -942671751277378458867517085697781256677923678908579999552180830981978412034142636301717989114546579152997936166853922365588374350,
  -932616064586538157794241192641232387565396110474137065994844393038343034799940312621621808847290101908944833263902484573089038260,
  -921778547163367939821017321736562089341888188929132284052215600248628871243719998106743648147557618381720605054367108798984371370,
  -910168284279772437064676846582425472977940427532410577215839445175408612122110174565127553334681685174153911099940437121746108960,
  -897795009027294290268972694618850478443079072226704734101168529393316851155795059187361309453790728391926591275954167391091848850,
  -884669094153692518730215255120576056116397583368246230087478494392108118225064923339492053607628882463861116517714139367597055270,
  -870801543364797852125589228772863026392148891178282888987736280670262171079112495668299584890760805685386008961403244914571105930,
  -856203982098312063459340912011391962040811348320636576732061575899504570831369036204638218075807100345206931536103105033483363760,
  -840888647776936852232148505169689108382536885171144455158981970959878014962396291794346586289139794018983055026176694983636726810,
  -824868379548801204243438622463979864885899103564691221778066347372418312180745391657673902076529408791679756863611104803349235210,
  -808156607523667234519113254892309460115490435747366109192435554381835903517750812401380025427712973725544307604078473499645392340,
  -790767341513863731080448583596699646203621560162538510203692413076176257785703797898434165521983959788037209068775343804988296430,
  -772715159289339245916205003345871780354326757849822255745191266477778248591972206729875229794923850396657702781944027700413689980,
  -754015194356650523822417336306105452494948926802034274333888380644646475718894070230196776921884882157626897156112866313250785680,
  -734683123272111472808489236264863550855002016198038099971144677156205405409620696215610667172780261443849655911201914505775457900,
  -714735152499724950912027247022904195354757375406930484657673670317865985900813297478314573704942638567294979343680487008901366150,
  -694188004824905502274766235433493124521150230664439924259546664161984279347291906704880792884277182727150459985700337635876490060,
  -673058905335376361256415396619949381135723582492781668979718732660276677878513625085661468112310145763312129424369806469445484210,
  -651365566980988765620360710234496264486424532784177854751938904310637448579385331891581845905470048407190806243613498765397361360,
  -629126175724565895560414080031320296145333043022767874572771588962294270509363899935875605859800837213614895324820152888283691590,
  -606359375296217490744390988365826999558902497233304898814500892924034882950804859412352035547358803259785062184311565807749938920,
  -583084251563904234583632582429295996225945777641011329239463492747332737176367359336664235806281882315313215865258089833890084930,
  -559320316533353139088548526473285534158180212315117196245289453368218828154712138248177120385672791101140715574850519170038412980,
  -535087491990736200828361785713225373231399377371878272792561746763713488959176184008564927798468324113151168467007186208699510560,
  -510406092801824305417483343012564311874826435559881597709766471589210430705207203634189932215314175074397341860363141466266383180,
  -485296809881616508800009928891146389124128682009234572043713949667147353992197900998397997161283188824559553776743048063386673540,
  -459780692848721194324574319573565679018132697158852486790451338821969289751344543921537403341182170969613739361464515622583533140,
  -433879132379029975665505658674285272608154832694642317039815462523057893976414774065663166254529596262619840401797092031515771310,
  -407613842273477373969588885988224147835596358728259595800850408486582235284456290294515198274039703826391224768104603637810783340,
  -381006841254919037866908283515284836234005753015188096971890948079388390771238949020397647824739058108182652282058072771179871170,
  -354080434509388400547750814756739490070029609711150970433332664248528179748108719114928554193140282713946230437277488419668903710,
  -326857194987205991715662817718049562979872277066374892006554973485295041328321972362388143927658207126958262132540851844677934530,
  -299359944479616966501109576358011097000575571105016363340593864037018047033885854050984632960715051778925951794766173333042037210,
  -271611734486820611255990548450079623626579093695045798677406342132394575668266029300154540463448081209808190668772598058394151950,
  -243635826893430481025439876537945237837979143211459281741680054459658489657324984786180185536050019608014078176350937527815856190,
  -215455674467565269723489892868260357783211468663471131501341783157193001771667985206852690832746288748027908953665994733412051790,
  -187094901199918376978730353271436603885669347558036021735315442326623033958975363644720830913102803757766305184377391435795609450,
  -158577282499288291836069953587486375143340717574411910255560023835631122309255270167673595827989847849177510481917996592240000170,
  -129926725261172250935034309713396688550174742928334590243708583004470453531393219251256390009976708814016663785607413022301156350,
  -101167247826132046856348106700420654311358704666122331732267321838178979375332691646542003483948495185006032966594491315001367120,
  -72322959844733272055699431928118375405723770371126890443379809750934471190820378363915317809500139258836710026523691749551046706,
  -43418042065937607893212760825610384499210905289241308644145267418336182811606163163464230542119333166454134276143930153792438124,
  -14476726065891941190919792830399043577445934621374559052412551272172300365882209685175773937640613762260213050072378950554771970,
  14476726065891941190919792830399043577445934621374559052412551272172300365882209685175773937640613762260213050072378950554771970,
  43418042065937607893212760825610384499210905289241308644145267418336182811606163163464230542119333166454134276143930153792438124,
  72322959844733272055699431928118375405723770371126890443379809750934471190820378363915317809500139258836710026523691749551046706,
  101167247826132046856348106700420654311358704666122331732267321838178979375332691646542003483948495185006032966594491315001367120,
  129926725261172250935034309713396688550174742928334590243708583004470453531393219251256390009976708814016663785607413022301156350,
  158577282499288291836069953587486375143340717574411910255560023835631122309255270167673595827989847849177510481917996592240000170,
  187094901199918376978730353271436603885669347558036021735315442326623033958975363644720830913102803757766305184377391435795609450,
  215455674467565269723489892868260357783211468663471131501341783157193001771667985206852690832746288748027908953665994733412051790,
  243635826893430481025439876537945237837979143211459281741680054459658489657324984786180185536050019608014078176350937527815856190,
  271611734486820611255990548450079623626579093695045798677406342132394575668266029300154540463448081209808190668772598058394151950,
  299359944479616966501109576358011097000575571105016363340593864037018047033885854050984632960715051778925951794766173333042037210,
  326857194987205991715662817718049562979872277066374892006554973485295041328321972362388143927658207126958262132540851844677934530,
  354080434509388400547750814756739490070029609711150970433332664248528179748108719114928554193140282713946230437277488419668903710,
  381006841254919037866908283515284836234005753015188096971890948079388390771238949020397647824739058108182652282058072771179871170,
  407613842273477373969588885988224147835596358728259595800850408486582235284456290294515198274039703826391224768104603637810783340,
  433879132379029975665505658674285272608154832694642317039815462523057893976414774065663166254529596262619840401797092031515771310,
  459780692848721194324574319573565679018132697158852486790451338821969289751344543921537403341182170969613739361464515622583533140,
  485296809881616508800009928891146389124128682009234572043713949667147353992197900998397997161283188824559553776743048063386673540,
  510406092801824305417483343012564311874826435559881597709766471589210430705207203634189932215314175074397341860363141466266383180,
  535087491990736200828361785713225373231399377371878272792561746763713488959176184008564927798468324113151168467007186208699510560,
  559320316533353139088548526473285534158180212315117196245289453368218828154712138248177120385672791101140715574850519170038412980,
  583084251563904234583632582429295996225945777641011329239463492747332737176367359336664235806281882315313215865258089833890084930,
  606359375296217490744390988365826999558902497233304898814500892924034882950804859412352035547358803259785062184311565807749938920,
  629126175724565895560414080031320296145333043022767874572771588962294270509363899935875605859800837213614895324820152888283691590,
  651365566980988765620360710234496264486424532784177854751938904310637448579385331891581845905470048407190806243613498765397361360,
  673058905335376361256415396619949381135723582492781668979718732660276677878513625085661468112310145763312129424369806469445484210,
  694188004824905502274766235433493124521150230664439924259546664161984279347291906704880792884277182727150459985700337635876490060,
  714735152499724950912027247022904195354757375406930484657673670317865985900813297478314573704942638567294979343680487008901366150,
  734683123272111472808489236264863550855002016198038099971144677156205405409620696215610667172780261443849655911201914505775457900,
  754015194356650523822417336306105452494948926802034274333888380644646475718894070230196776921884882157626897156112866313250785680,
  772715159289339245916205003345871780354326757849822255745191266477778248591972206729875229794923850396657702781944027700413689980,
  790767341513863731080448583596699646203621560162538510203692413076176257785703797898434165521983959788037209068775343804988296430,
  808156607523667234519113254892309460115490435747366109192435554381835903517750812401380025427712973725544307604078473499645392340,
  824868379548801204243438622463979864885899103564691221778066347372418312180745391657673902076529408791679756863611104803349235210,
  840888647776936852232148505169689108382536885171144455158981970959878014962396291794346586289139794018983055026176694983636726810,
  856203982098312063459340912011391962040811348320636576732061575899504570831369036204638218075807100345206931536103105033483363760,
  870801543364797852125589228772863026392148891178282888987736280670262171079112495668299584890760805685386008961403244914571105930,
  884669094153692518730215255120576056116397583368246230087478494392108118225064923339492053607628882463861116517714139367597055270,
  897795009027294290268972694618850478443079072226704734101168529393316851155795059187361309453790728391926591275954167391091848850,
  910168284279772437064676846582425472977940427532410577215839445175408612122110174565127553334681685174153911099940437121746108960,
  921778547163367939821017321736562089341888188929132284052215600248628871243719998106743648147557618381720605054367108798984371370,
  932616064586538157794241192641232387565396110474137065994844393038343034799940312621621808847290101908944833263902484573089038260,
  942671751277378458867517085697781256677923678908579999552180830981978412034142636301717989114546579152997936166853922365588374350,
  951937177406643110178407494758939165835738287298027912202542927393172792871787286359478985648502338390242864358684908553635925570,
  960404575666256925952678149479751828303118218234131221431046631812231794522899210540182854961884060634129469210763998113404878910,
  968066847802107571184125259344389321061957255817088800517515048124368947532874544422319108189848493634592688229986280791268009750,
  974917570606093407558546509233127114185190360976937268677366152968315924565293281536289210711295497127694235004066347440526911690,
  980951001387464542237033257328203662164656172953282726737179575954760290998045858037261167988906533423526236889378620815244434770,
  986162082985255844436706819849945619161083932398679463513293120159274114636269554807895621595961453541376617283854936077287937840,
  990546448517270881729994300566077198300426513121094948592596829230848124943493574030669450587756995682458691212485577363974307600,
  994100426572366085639974340092973001832002827427910182859580365233246247043895172401479759683595832007555366331012950167926383670,
  996821050049220361023804588947837440536563426279048659885306916103427621576813354195690106956963627644325229084810453626188553720,
  998706089548479825415612043180378026871710412966204866136493500978837577214522409416109765713920607102465148745622628466581322150,
  999754383899439767571526368922549896880606364160632164688663412225140719009880058839925678829255276217910112239504331490826263410]

/-- `case 108` (Util/Gauss_Legendre_Nodes_and_Weights.hpp:28822-29316), `weights`. -/
def weights108 : List Nat := [
  630304426123453985773409113570013682119309055943184965426692615447055261192008367646195000000000000000000000000000000000000000,
  1466715932572322497105382484476127343003096830228801333020178730731016094904734229441850000000000000000000000000000000000000000,
  2303137408183772256392874471759006984421523156076308401693537525361806134829492181527560000000000000000000000000000000000000000,
  3137735813934746196548648245642363878902457675910443985514992035854424661889964740347500000000000000000000000000000000000000000,
  3969725424107143631517112893122664542194500567900095868299673424237138232214813538064500000000000000000000000000000000000000000,
  4798393616409949900711003159430696547128137482569040801093409451480974605807696318458300000000000000000000000000000000000000000,
  5623041683856998369959846901761882104185241076017984951226039726912538129916642841638500000000000000000000000000000000000000000,
  6442976940802539601774937426741226939327233791211099494941740509056233115455225588247600000000000000000000000000000000000000000,
  7257511468868949502087991482411464883280367568823377706468293186789273375055745186233700000000000000000000000000000000000000000,
  8065962177080155549284438232165760673042148499450861912942699600653948386765049524889500000000000000000000000000000000000000000,
  8867651199967401219727907454769809198171294553915910217041431190361070790720828968419170000000000000000000000000000000000000000,
  9661906398345134828638103488799227678463447677649324970049378526315303656900842001050470000000000000000000000000000000000000000,
  10448061893815335254959541158994207102104022752373460233540708565321132847988487249109250000000000000000000000000000000000000000,
  11225458613480407794648512137695178523722220279259909122862170322198962190006877753104236000000000000000000000000000000000000000,
  11993444835716075071411957688034803557081442470859704054636271062264262220197467078327348000000000000000000000000000000000000000,
  12751376732962000121752271377620218694767178542149983706589241823249506742241100285746353000000000000000000000000000000000000000,
  13498618909482109866175676976696400775619053891925223216341223453435859975102073321015352600000000000000000000000000000000000000,
  14234544932890075638888334323862404406548438982309248516109984855778630432136229109793678900000000000000000000000000000000000000,
  14958537858618134979837358501872007338218862371058658207777975051231117415917157319828096140000000000000000000000000000000000000,
  15669990746692902830188701281438329515383516352885164964603232616863253913042918361078312760000000000000000000000000000000000000,
  16368307170277897666385515731840755952701528958626193093041072959809981872303296873249734203000000000000000000000000000000000000,
  17052901715496085395831179999131622726928673675976287583134111589574218370001736458207265479000000000000000000000000000000000000,
  17723200472078286081161528812834851260004157552212679883220504474826789472999183459549314826700000000000000000000000000000000000,
  18378641514405080747500922310343038442837803466501125903799210771198306429715886090096981235000000000000000000000000000000000000,
  19018675372526027832890894426601689925905247584289450394537149716042130390427856447007334015070000000000000000000000000000000000,
  19642765492753202844119160922077585649324691096230242494915792721170912989657266866188229613536000000000000000000000000000000000,
  20250388687437724662934476915010814367430967283789183448489163213321096810365198680176677303873000000000000000000000000000000000,
  20841035573548802886523115776334346252970602730487886000653618050866453531868339361001116754824900000000000000000000000000000000,
  21414210999685367472934362688782811172729384066693505460659101428056366510237411289157989916310580000000000000000000000000000000,
  21969434461160773326811659116904073308362173674414806775223541428767491560672339395516114806613513000000000000000000000000000000,
  22506240502811552099915149967145206228921184622960469764326332936241038702144937263978750207746989400000000000000000000000000000,
  23024179109191794904428874886973408811638378666599059028943358224050460514324288493172026144738527740000000000000000000000000000,
  23522816081825540863510476635919901557768984909177112451772770332321772933880690408546318401877160179000000000000000000000000000,
  24001733403200544126157595643072751593105741199253170119017478287441881499965154830291148549073614902000000000000000000000000000,
  24460529587198009720046977901627511225372562808121262224030588937993329396327991820935414817549002714900000000000000000000000000,
  24898820015664331762869927591145703494555544470329719494408112995196105019088587925713708418302168449890000000000000000000000000,
  25316237260842536204749192071998553364224293202899812200878474107216079413216413360258434039055701499867200000000000000000000000,
  25712431393393021106720953629510143325383412512957567510343317643568782763340152105137411219858019545231760000000000000000000000,
  26087070275745294858177464153128618464863864586664259721963839748311118116066855552469310873729543374261180000000000000000000000,
  26439839840534729519580484657649491683516245090941599018261652753697250808757319579128426761746382658721725500000000000000000000,
  26770444353890864368810989008261330218521120721595005938896408797867546283566070037479719458193859864424298640000000000000000000,
  27078606663356504664119686400783359008731898954033654434108087659675583138768065830030726711262046792263122600000000000000000000,
  27364068430229752964001093563706893652787295211523368386193825020026862540135099733638623846334117432716590497000000000000000000,
  27626590346134174970870344092956451411298990899635500272101374444813092555092699496572443443660134482815842778885000000000000000,
  27865952333635528351049624231721195119066255333022795019874971460268333272863435606662953515590430693209990143207500000000000000,
  28081953730736860610699472556540701887213620537101120101726474329431615785368280468755865567813245208574881226448150000000000000,
  28274413459097299931403554578560091866151622436355469534408286882578583832013937962027739497842980896343325498332350100000000000,
  28443170175833509756530866791920888092792290837789221632477582097194748164198980558174841101313715155653636403568358480000000000,
  28588082408776542577069784872809615554658919220919881719408306865489186326523924313681639435117643950030187469204208962000000000,
  28709028675070699364265608825411303144717461521294727835918346023168277814769985367891340935931698057451860733208955739080000000,
  28805907583014966890816883543662083222149108902350237148131507707273681703631874823992165480739749601088163323270609888635000000,
  28878637917061654128085503162301311501124364919831854647396633560844487221445066838708806484033203592094288807559850520724360000,
  28927158705900969275064095529645307001422100285107224679537658755888488585238884047679539076464206359631877846863048164601719000,
  28951429273574458966578570202822795143136014481796759448022469802264437488737434690954395716926631679012192340517660638629086970,
  28951429273574458966578570202822795143136014481796759448022469802264437488737434690954395716926631679012192340517660638629086970,
  28927158705900969275064095529645307001422100285107224679537658755888488585238884047679539076464206359631877846863048164601719000,
  28878637917061654128085503162301311501124364919831854647396633560844487221445066838708806484033203592094288807559850520724360000,
  28805907583014966890816883543662083222149108902350237148131507707273681703631874823992165480739749601088163323270609888635000000,
  28709028675070699364265608825411303144717461521294727835918346023168277814769985367891340935931698057451860733208955739080000000,
  28588082408776542577069784872809615554658919220919881719408306865489186326523924313681639435117643950030187469204208962000000000,
  28443170175833509756530866791920888092792290837789221632477582097194748164198980558174841101313715155653636403568358480000000000,
  28274413459097299931403554578560091866151622436355469534408286882578583832013937962027739497842980896343325498332350100000000000,
  28081953730736860610699472556540701887213620537101120101726474329431615785368280468755865567813245208574881226448150000000000000,
  27865952333635528351049624231721195119066255333022795019874971460268333272863435606662953515590430693209990143207500000000000000,
  27626590346134174970870344092956451411298990899635500272101374444813092555092699496572443443660134482815842778885000000000000000,
  27364068430229752964001093563706893652787295211523368386193825020026862540135099733638623846334117432716590497000000000000000000,
  27078606663356504664119686400783359008731898954033654434108087659675583138768065830030726711262046792263122600000000000000000000,
  26770444353890864368810989008261330218521120721595005938896408797867546283566070037479719458193859864424298640000000000000000000,
  26439839840534729519580484657649491683516245090941599018261652753697250808757319579128426761746382658721725500000000000000000000,
  26087070275745294858177464153128618464863864586664259721963839748311118116066855552469310873729543374261180000000000000000000000,
  25712431393393021106720953629510143325383412512957567510343317643568782763340152105137411219858019545231760000000000000000000000,
  25316237260842536204749192071998553364224293202899812200878474107216079413216413360258434039055701499867200000000000000000000000,
  24898820015664331762869927591145703494555544470329719494408112995196105019088587925713708418302168449890000000000000000000000000,
  24460529587198009720046977901627511225372562808121262224030588937993329396327991820935414817549002714900000000000000000000000000,
  24001733403200544126157595643072751593105741199253170119017478287441881499965154830291148549073614902000000000000000000000000000,
  23522816081825540863510476635919901557768984909177112451772770332321772933880690408546318401877160179000000000000000000000000000,
  23024179109191794904428874886973408811638378666599059028943358224050460514324288493172026144738527740000000000000000000000000000,
  22506240502811552099915149967145206228921184622960469764326332936241038702144937263978750207746989400000000000000000000000000000,
  21969434461160773326811659116904073308362173674414806775223541428767491560672339395516114806613513000000000000000000000000000000,
  21414210999685367472934362688782811172729384066693505460659101428056366510237411289157989916310580000000000000000000000000000000,
  20841035573548802886523115776334346252970602730487886000653618050866453531868339361001116754824900000000000000000000000000000000,
  20250388687437724662934476915010814367430967283789183448489163213321096810365198680176677303873000000000000000000000000000000000,
  19642765492753202844119160922077585649324691096230242494915792721170912989657266866188229613536000000000000000000000000000000000,
  19018675372526027832890894426601689925905247584289450394537149716042130390427856447007334015070000000000000000000000000000000000,
  18378641514405080747500922310343038442837803466501125903799210771198306429715886090096981235000000000000000000000000000000000000,
  17723200472078286081161528812834851260004157552212679883220504474826789472999183459549314826700000000000000000000000000000000000,
  17052901715496085395831179999131622726928673675976287583134111589574218370001736458207265479000000000000000000000000000000000000,
  16368307170277897666385515731840755952701528958626193093041072959809981872303296873249734203000000000000000000000000000000000000,
  15669990746692902830188701281438329515383516352885164964603232616863253913042918361078312760000000000000000000000000000000000000,
  14958537858618134979837358501872007338218862371058658207777975051231117415917157319828096140000000000000000000000000000000000000,
  14234544932890075638888334323862404406548438982309248516109984855778630432136229109793678900000000000000000000000000000000000000,
  13498618909482109866175676976696400775619053891925223216341223453435859975102073321015352600000000000000000000000000000000000000,
  12751376732962000121752271377620218694767178542149983706589241823249506742241100285746353000000000000000000000000000000000000000,
  11993444835716075071411957688034803557081442470859704054636271062264262220197467078327348000000000000000000000000000000000000000,
  11225458613480407794648512137695178523722220279259909122862170322198962190006877753104236000000000000000000000000000000000000000,
  10448061893815335254959541158994207102104022752373460233540708565321132847988487249109250000000000000000000000000000000000000000,
  9661906398345134828638103488799227678463447677649324970049378526315303656900842001050470000000000000000000000000000000000000000,
  8867651199967401219727907454769809198171294553915910217041431190361070790720828968419170000000000000000000000000000000000000000,
  8065962177080155549284438232165760673042148499450861912942699600653948386765049524889500000000000000000000000000000000000000000,
  7257511468868949502087991482411464883280367568823377706468293186789273375055745186233700000000000000000000000000000000000000000,
  6442976940802539601774937426741226939327233791211099494941740509056233115455225588247600000000000000000000000000000000000000000,
  5623041683856998369959846901761882104185241076017984951226039726912538129916642841638500000000000000000000000000000000000000000,
  4798393616409949900711003159430696547128137482569040801093409451480974605807696318458300000000000000000000000000000000000000000,
  3969725424107143631517112893122664542194500567900095868299673424237138232214813538064500000000000000000000000000000000000000000,
  3137735813934746196548648245642363878902457675910443985514992035854424661889964740347500000000000000000000000000000000000000000,
  2303137408183772256392874471759006984421523156076308401693537525361806134829492181527560000000000000000000000000000000000000000,
  1466715932572322497105382484476127343003096830228801333020178730731016094904734229441850000000000000000000000000000000000000000,
  630304426123453985773409113570013682119309055943184965426692615447055261192008367646195000000000000000000000000000000000000000]

/-- `case 109` (Util/Gauss_Legendre_Nodes_and_Weights.hpp:29318-29812), `nodes`. -/
def nodes109 : List Int := [
  -999758849343082756375116367420113999473239965167462500039259928137024526382764636580202255667762380839349037719156513972811974270,
  -998729609556718755785030602583796835173596293179168386859391277723812354922470933677550078036686278220507612650711982991872469880,
  -996878817447039380863287099730242386535700637233601275633158303413351163375331914585775363691028234025197150795368411935454755840,
  -994207584888376528097520283664684558538037816424492202628034036002566353537908739783619607316284069266483803194414218407087131370,
  -990718060097157701251820161114264381607956005477690429002766620667914187334626888284728539842421698160362103420795403646316129550,
  -986413103182345205751462596397611206478498000449826337610904445016778254875180018016880214158488797131735734269300021335558364510,
  -981296253448665314508190812333627421212774975339277182552476071479344354456546214490631022317909640908745111822767428460324174350,
  -975371720827334424558331416664830471704989030801839496961515537833684963084080329439194821705972677143632181249460155519403631670,
  -968644380907382429465524751317680232204413267167805332506511650284926790855999680141479499318258059495339171175921487146766608430,
  -961119770422466977292653305518584081692434078692936891062369715282515625288237387392997123133021835117679683875528825183034014410,
  -952804082499092928804165000975572985086567113478209867942068609926901360547517010351415734221837838172922160801170717479348627880,
  -943704161474120326073958281464695513862462816043167406158681340810351053854779303516323360888618578417424680403751514222762426310,
  -933827497220649287925965811103423929295556477332367832843230069500384832866651056694820087362366315230957183942468742480538651800,
  -923182218962347440250589841818133581423082103570555473902272390369238413223878231616197020623870665280635709281746601338258234650,
  -911777088571050068916120810366553168071222834867553133311110667888389019293811863863176961634363321127120181060986658066236375760,
  -899621493348511708701558304171080341038023730417893538344491240511132883007475718303575040676884025980483396301207002857583148620,
  -886725438296009921652428192871759691966434192372842989976639887104333158049213396651506477677215498657345868163781943711269676240,
  -873099537877019391535035321672750383107298155999000103798036627923512975043932177501378842896537796070292541826500406044764306680,
  -858755007279122912887519171740610520078965929019035389318905189453129896798666239228374187675618226376726107542130626531272817780,
  -843703653182008822443633332266490248341748676897234677384472824897529505075367742950993893938874312221502696549885846495908584120,
  -827957864038955160745103053184015920644429854252756920130695751973185632378753224857316709643876752458067171688615881629498566490,
  -811530599879681080120912733498173206052266618353749052012770816946246009391133088651132370738241606736027620887875507913997315510,
  -794435381642885631190398964790998295624768465223425657784559707792990629643940207488680356867305349078928077318242892797054705780,
  -776686280047208095653393265652611444186725033917475399850714713354099855281604602908890518751571570735861698478321306653678303930,
  -758297904009740266116992952300670508744691913115913552947447214245474082273525929319965488137252715656452401603566828173594666710,
  -739285388621603604199457701685238272055410088688042280645894756109278620274617391768910391413065173090411882504736288831706331270,
  -719664382690475207690054611434660655296907600614631762072990836346749760205769350728713768366391826282946286686787025674329253860,
  -699451035860307115723731373157083690634915861533252823392037480753807272373784233906891341482848283327459998226547683576577094700,
  -678661985318834229689592170776664947116954990758268707313136975803985603337134824104549566879252998731405784230586230500765207120,
  -657314342103807251632496053419164103543432278005188417797101816404165354709414164306429780596612496549500491432761524683547033490,
  -635425677019218577456282846460631600075236856508900417649681303823704545622506115463265371578967927758629353726029824979236002150,
  -613014006173110955891445336185883688040785145663215085494451495879876520904087021184814961376056146240649773807978886502291024960,
  -590097776148870798758856488242465800582203121578792341998620821616358386619586661142502976356230441395117253607796589216249802510,
  -566695848822210129816023745185693720778856745622057257976498187839220736583740611372439648976065954960300751924225594328111807400,
  -542827485836333094685311847989572431200782104234055718970514188212126024781515496495565863108441987705810234188157551986476824560,
  -518512332748064519550341376953629713478592320306817368662315212096264726611925070854130003791589238172109571875120036948551953170,
  -493770402857988994699859811416571148780734873292694712441263444809718895209923003726192965877539757026208050504702538139415409210,
  -468622060737909164722007027162550401686914700347625273121000068128558706727006681329898198987401366266508234863431574196670612370,
  -443088005469181127971803764399293954649828000337459544989426370294433325824108679456254088379921278585350782239954523046579108340,
  -417189253605722887110013732435893935618194371409758072902840064679939875313828500237823933809378896471398264268592307404806729660,
  -390947121875718460071675368704457157015163531844247028542310801588618649490713786372160577263126027051264553616183336758869649730,
  -364383209636255374470095199417755525891545573799871090076031747931731268365315074860355126629188377419428622895960002882384510180,
  -337519381095336654208106688943958293462258881499848468513238845020767987416658145098120738482117665074113412609875532074934823640,
  -310377747315899899801868161866751338792357001176201559020605221170041250807942562504300278776450545166566751928522386043323577660,
  -282980648016655507665219181650473321390164254670969268436313751152913571984853866366440773413806017657754557342161626127177177490,
  -255350633184723321884626472211442894221796960345038674282944519732889314764034963054509386028815808007292164834108418639836677150,
  -227510444515201928092306976643048060379247724533358158361001443863888059527889559116361645466199739669328305759724413854965358090,
  -199482996692947256096832525442347772785784752998051568569424220455938179038062062135058090819601132725785979110155031196753961420,
  -171291358531967039221507087065312891321336107615046973478919324112409045673029857723153235874862815646738421265748118912591319100,
  -142958733987954877321851218404286705401400864454625260900371380686506893929407217501932448051893883531526424678919279881618050000,
  -114508443059592071040045434105085086986917384970718645883504387541084826618436581131954024870011366649500434135178030350868630450,
  -85963902594336951288204522613086648527808250687464839182108916130533224781153842737710518115764922229079747836650152862704400501,
  -57348607014500045049808096338884645685777032209181563948457249938403575036172044538070490925593033075466235749252533613955401715,
  -28686108979469031773498208825031944574717551140329387384551517458441559222512253127848327588117869261197920677911857633464599060,
  0,
  28686108979469031773498208825031944574717551140329387384551517458441559222512253127848327588117869261197920677911857633464599060,
  57348607014500045049808096338884645685777032209181563948457249938403575036172044538070490925593033075466235749252533613955401715,
  85963902594336951288204522613086648527808250687464839182108916130533224781153842737710518115764922229079747836650152862704400501,
  114508443059592071040045434105085086986917384970718645883504387541084826618436581131954024870011366649500434135178030350868630450,
  142958733987954877321851218404286705401400864454625260900371380686506893929407217501932448051893883531526424678919279881618050000,
  171291358531967039221507087065312891321336107615046973478919324112409045673029857723153235874862815646738421265748118912591319100,
  199482996692947256096832525442347772785784752998051568569424220455938179038062062135058090819601132725785979110155031196753961420,
  227510444515201928092306976643048060379247724533358158361001443863888059527889559116361645466199739669328305759724413854965358090,
  255350633184723321884626472211442894221796960345038674282944519732889314764034963054509386028815808007292164834108418639836677150,
  282980648016655507665219181650473321390164254670969268436313751152913571984853866366440773413806017657754557342161626127177177490,
  310377747315899899801868161866751338792357001176201559020605221170041250807942562504300278776450545166566751928522386043323577660,
  337519381095336654208106688943958293462258881499848468513238845020767987416658145098120738482117665074113412609875532074934823640,
  364383209636255374470095199417755525891545573799871090076031747931731268365315074860355126629188377419428622895960002882384510180,
  390947121875718460071675368704457157015163531844247028542310801588618649490713786372160577263126027051264553616183336758869649730,
  417189253605722887110013732435893935618194371409758072902840064679939875313828500237823933809378896471398264268592307404806729660,
  443088005469181127971803764399293954649828000337459544989426370294433325824108679456254088379921278585350782239954523046579108340,
  468622060737909164722007027162550401686914700347625273121000068128558706727006681329898198987401366266508234863431574196670612370,
  493770402857988994699859811416571148780734873292694712441263444809718895209923003726192965877539757026208050504702538139415409210,
  518512332748064519550341376953629713478592320306817368662315212096264726611925070854130003791589238172109571875120036948551953170,
  542827485836333094685311847989572431200782104234055718970514188212126024781515496495565863108441987705810234188157551986476824560,
  566695848822210129816023745185693720778856745622057257976498187839220736583740611372439648976065954960300751924225594328111807400,
  590097776148870798758856488242465800582203121578792341998620821616358386619586661142502976356230441395117253607796589216249802510,
  613014006173110955891445336185883688040785145663215085494451495879876520904087021184814961376056146240649773807978886502291024960,
  635425677019218577456282846460631600075236856508900417649681303823704545622506115463265371578967927758629353726029824979236002150,
  657314342103807251632496053419164103543432278005188417797101816404165354709414164306429780596612496549500491432761524683547033490,
  678661985318834229689592170776664947116954990758268707313136975803985603337134824104549566879252998731405784230586230500765207120,
  699451035860307115723731373157083690634915861533252823392037480753807272373784233906891341482848283327459998226547683576577094700,
  719664382690475207690054611434660655296907600614631762072990836346749760205769350728713768366391826282946286686787025674329253860,
  739285388621603604199457701685238272055410088688042280645894756109278620274617391768910391413065173090411882504736288831706331270,
  758297904009740266116992952300670508744691913115913552947447214245474082273525929319965488137252715656452401603566828173594666710,
  776686280047208095653393265652611444186725033917475399850714713354099855281604602908890518751571570735861698478321306653678303930,
  794435381642885631190398964790998295624768465223425657784559707792990629643940207488680356867305349078928077318242892797054705780,
  811530599879681080120912733498173206052266618353749052012770816946246009391133088651132370738241606736027620887875507913997315510,
  827957864038955160745103053184015920644429854252756920130695751973185632378753224857316709643876752458067171688615881629498566490,
  843703653182008822443633332266490248341748676897234677384472824897529505075367742950993893938874312221502696549885846495908584120,
  858755007279122912887519171740610520078965929019035389318905189453129896798666239228374187675618226376726107542130626531272817780,
  873099537877019391535035321672750383107298155999000103798036627923512975043932177501378842896537796070292541826500406044764306680,
  886725438296009921652428192871759691966434192372842989976639887104333158049213396651506477677215498657345868163781943711269676240,
  899621493348511708701558304171080341038023730417893538344491240511132883007475718303575040676884025980483396301207002857583148620,
  911777088571050068916120810366553168071222834867553133311110667888389019293811863863176961634363321127120181060986658066236375760,
  923182218962347440250589841818133581423082103570555473902272390369238413223878231616197020623870665280635709281746601338258234650,
  933827497220649287925965811103423929295556477332367832843230069500384832866651056694820087362366315230957183942468742480538651800,
  943704161474120326073958281464695513862462816043167406158681340810351053854779303516323360888618578417424680403751514222762426310,
  952804082499092928804165000975572985086567113478209867942068609926901360547517010351415734221837838172922160801170717479348627880,
  961119770422466977292653305518584081692434078692936891062369715282515625288237387392997123133021835117679683875528825183034014410,
  968644380907382429465524751317680232204413267167805332506511650284926790855999680141479499318258059495339171175921487146766608430,
  975371720827334424558331416664830471704989030801839496961515537833684963084080329439194821705972677143632181249460155519403631670,
  981296253448665314508190812333627421212774975339277182552476071479344354456546214490631022317909640908745111822767428460324174350,
  986413103182345205751462596397611206478498000449826337610904445016778254875180018016880214158488797131735734269300021335558364510,
  990718060097157701251820161114264381607956005477690429002766620667914187334626888284728539842421698160362103420795403646316129550,
  994207584888376528097520283664684558538037816424492202628034036002566353537908739783619607316284069266483803194414218407087131370,
  996878817447039380863287099730242386535700637233601275633158303413351163375331914585775363691028234025197150795368411935454755840,
  998729609556718755785030602583796835173596293179168386859391277723812354922470933677550078036686278220507612650711982991872469880,
  999758849343082756375116367420113999473239965167462500039259928137024526382764636580202255667762380839349037719156513972811974270]

/-- `case 109` (Util/Gauss_Legendre_Nodes_and_Weights.hpp:29318-29812), `weights`. -/
def weights109 : List Nat := [
  618845585493223424278449042418914764801589245407557757735496670452623332240829718132373000000000000000000000000000000000000000,
  1440060408440114751051070783220441407815441268957188906423965627618551579823528076741440000000000000000000000000000000000000000,
  2261306954162050301581049804592329257155686111293619405849925280946867245686343983956300000000000000000000000000000000000000000,
  3080798002552169302263163316226345242001011558615372681846579799415551730317997622105900000000000000000000000000000000000000000,
  3897774547727067412870462656170281319154628740766357700216652116886179286677261450636400000000000000000000000000000000000000000,
  4711549280146583016243033274321319973610498756543463111423880025563729961047437766690600000000000000000000000000000000000000000,
  5521448454031903758153026799727901048404068014986923520442932822903539275149316014444500000000000000000000000000000000000000000,
  6326804116444440058135983723106731823618577394598010008799225016619020661253864890548100000000000000000000000000000000000000000,
  7126952855679476252639222348385476114617195980688702890708438071083845162053967630453700000000000000000000000000000000000000000,
  7921235840144562482528027971247330121106796512985087992872666053244716113179436616406100000000000000000000000000000000000000000,
  8708999189264292044889412972353281739516832829917428981052150007223297537049337091064200000000000000000000000000000000000000000,
  9489594445412503417993949975679089118838557987505300700284594473385471830974834341896390000000000000000000000000000000000000000,
  10262379079208464501097310120688706997707310550733542717950308911873067953407398368411430000000000000000000000000000000000000000,
  11026717005109282946614292149796680417181916886642038673016820054671010924156416251086000000000000000000000000000000000000000000,
  11781979098340476296185837765601990637322190075416935874574643842911663042030461504360290000000000000000000000000000000000000000,
  12527543709219774820777160261849580147322546715690572366287739605642116130466643007751553000000000000000000000000000000000000000,
  13262797172886845370787834252696452508990180653986408639793643709772544188552558764310350000000000000000000000000000000000000000,
  13987134313279393947477438388243559942849607745231958398580264415700464719684660236624972200000000000000000000000000000000000000,
  14699958940571464963830000047710980379269683240661122214727239624898550119291834268035504200000000000000000000000000000000000000,
  15400684341471413118437275463960858979599539829654736108946570741673098344504989900910932360000000000000000000000000000000000000,
  16088733761870895539693069183674691435887018048108425564541108479238773873247695196137012760000000000000000000000000000000000000,
  16763540881388351793503252879729655997472288579331079905953689887112861053554575738215244008000000000000000000000000000000000000,
  17424550279381882772482095997837629350511250470615581589220954814573936683939022428183073025000000000000000000000000000000000000,
  18071217892027304911671834564901090217390756204642423961034215444372070560180322417663482435200000000000000000000000000000000000,
  18703011460072481055486265683673152052756411990431242644172854057954535381845386920489296447970000000000000000000000000000000000,
  19319410966891417576068008476282971195353476095210653439486776670590198189332190791246223503250000000000000000000000000000000000,
  19919909066472458086107262306415991197724005399876726995056167300553179139351102365379009793050000000000000000000000000000000000,
  20504011500984959003160878197800165717116301090769680975136450606364804276114839208197261262046100000000000000000000000000000000,
  21071237507578528936991863041891162342772636750641750191780183197629135770667482857765928973865750000000000000000000000000000000,
  21621120214078497063888611466502018541688631635636188801091229502850011609514780598306970425259340000000000000000000000000000000,
  22153207023250887191576599717546254586246397991587665250305227781115614263968511503811163467683023000000000000000000000000000000,
  22667059985319896804080038361393948704959236219843242157485865070722627672146972830065998891361571900000000000000000000000000000,
  23162256158430761880030847982550094032718946301166678919548862537709772205418238427294962375444308110000000000000000000000000000,
  23638387956760955634213269936738377297899270547860699725615935053464884560809610143301382076963499814000000000000000000000000000,
  24095063485992936625219491671823065229904173647842289794244783779396241684661212774384394659362706628400000000000000000000000000,
  24531906865872134941650065297691757524860507761975128486318968194675770715622108578280941387156955245050000000000000000000000000,
  24948558539584545325506808365131219023512582410605365886549172774733180854482441337379998669764328746588000000000000000000000000,
  25344675569699180662715088577109305595290225644907993388832214097753976502548224043565199097085751899486700000000000000000000000,
  25719931920431723581990739372420074746394130590720176042200541568675004194778077397473359715833791485892120000000000000000000000,
  26074018725996991746713954393322203374907483102454318307829854550256849108025247308415212422128684680854987000000000000000000000,
  26406644544829296528508286773614997566815550199283599859298471019559051663040369450958655083269903931701763800000000000000000000,
  26717535599461417081672191995596453243243280608412679424394507889138465721144650409838934486720670312622817968000000000000000000,
  27006436001864723798640811335186596212081288016836326308471143446713620903450395165773922909169805129277307090600000000000000000,
  27273107964064957697260441422251522112010602477725622629534093610515381295907511416946408550480245686206616357090000000000000000,
  27517331993860296119203660059650373043942513343032731176365760452615240705143812609791209887904981549394535213836000000000000000,
  27738907075480600590037775978364581080792960104260318762357538958707722265471287172346615066384332211909073133047560000000000000,
  27937650835039139974938218310799515560299042883440544230105222440925521641495478407874782722037990019944621275571280000000000000,
  28113399690640601150745351993001843625156655956426502551641513153953154938640288302223262455301283545538045401928752800000000000,
  28266008987021830145203552840903398729328385114177662043139220982854008264309383843645596482663524609749813520779192736000000000,
  28395353114614478779581499125891043231605529025989195323296006126712563951481456094006735222301159376822415476548167682100000000,
  28501325612931554893219987673153205972897508686567808392685693106984972956765119282070850041543968746179851014880879162294000000,
  28583839258192777735332307262411100007134965880344140145619638508516504543989417345575069221413205019173553154385343080888800000,
  28642826135116613507526564037115468276036041358129907834994976100327036468867274034825293164185530284300198118951212190133690000,
  28678237692819898688952342652230089493417301374480230174477431728174409347374347969983441091270898873003259015007820165360564900,
  28690044784779039977185923894793463477977568772766180931359980464146015790324096248032020161115239116035418038547558213884310058,
  28678237692819898688952342652230089493417301374480230174477431728174409347374347969983441091270898873003259015007820165360564900,
  28642826135116613507526564037115468276036041358129907834994976100327036468867274034825293164185530284300198118951212190133690000,
  28583839258192777735332307262411100007134965880344140145619638508516504543989417345575069221413205019173553154385343080888800000,
  28501325612931554893219987673153205972897508686567808392685693106984972956765119282070850041543968746179851014880879162294000000,
  28395353114614478779581499125891043231605529025989195323296006126712563951481456094006735222301159376822415476548167682100000000,
  28266008987021830145203552840903398729328385114177662043139220982854008264309383843645596482663524609749813520779192736000000000,
  28113399690640601150745351993001843625156655956426502551641513153953154938640288302223262455301283545538045401928752800000000000,
  27937650835039139974938218310799515560299042883440544230105222440925521641495478407874782722037990019944621275571280000000000000,
  27738907075480600590037775978364581080792960104260318762357538958707722265471287172346615066384332211909073133047560000000000000,
  27517331993860296119203660059650373043942513343032731176365760452615240705143812609791209887904981549394535213836000000000000000,
  27273107964064957697260441422251522112010602477725622629534093610515381295907511416946408550480245686206616357090000000000000000,
  27006436001864723798640811335186596212081288016836326308471143446713620903450395165773922909169805129277307090600000000000000000,
  26717535599461417081672191995596453243243280608412679424394507889138465721144650409838934486720670312622817968000000000000000000,
  26406644544829296528508286773614997566815550199283599859298471019559051663040369450958655083269903931701763800000000000000000000,
  26074018725996991746713954393322203374907483102454318307829854550256849108025247308415212422128684680854987000000000000000000000,
  25719931920431723581990739372420074746394130590720176042200541568675004194778077397473359715833791485892120000000000000000000000,
  25344675569699180662715088577109305595290225644907993388832214097753976502548224043565199097085751899486700000000000000000000000,
  24948558539584545325506808365131219023512582410605365886549172774733180854482441337379998669764328746588000000000000000000000000,
  24531906865872134941650065297691757524860507761975128486318968194675770715622108578280941387156955245050000000000000000000000000,
  24095063485992936625219491671823065229904173647842289794244783779396241684661212774384394659362706628400000000000000000000000000,
  23638387956760955634213269936738377297899270547860699725615935053464884560809610143301382076963499814000000000000000000000000000,
  23162256158430761880030847982550094032718946301166678919548862537709772205418238427294962375444308110000000000000000000000000000,
  22667059985319896804080038361393948704959236219843242157485865070722627672146972830065998891361571900000000000000000000000000000,
  22153207023250887191576599717546254586246397991587665250305227781115614263968511503811163467683023000000000000000000000000000000,
  21621120214078497063888611466502018541688631635636188801091229502850011609514780598306970425259340000000000000000000000000000000,
  21071237507578528936991863041891162342772636750641750191780183197629135770667482857765928973865750000000000000000000000000000000,
  20504011500984959003160878197800165717116301090769680975136450606364804276114839208197261262046100000000000000000000000000000000,
  19919909066472458086107262306415991197724005399876726995056167300553179139351102365379009793050000000000000000000000000000000000,
  19319410966891417576068008476282971195353476095210653439486776670590198189332190791246223503250000000000000000000000000000000000,
  18703011460072481055486265683673152052756411990431242644172854057954535381845386920489296447970000000000000000000000000000000000,
  18071217892027304911671834564901090217390756204642423961034215444372070560180322417663482435200000000000000000000000000000000000,
  17424550279381882772482095997837629350511250470615581589220954814573936683939022428183073025000000000000000000000000000000000000,
  16763540881388351793503252879729655997472288579331079905953689887112861053554575738215244008000000000000000000000000000000000000,
  16088733761870895539693069183674691435887018048108425564541108479238773873247695196137012760000000000000000000000000000000000000,
  15400684341471413118437275463960858979599539829654736108946570741673098344504989900910932360000000000000000000000000000000000000,
  14699958940571464963830000047710980379269683240661122214727239624898550119291834268035504200000000000000000000000000000000000000,
  13987134313279393947477438388243559942849607745231958398580264415700464719684660236624972200000000000000000000000000000000000000,
  13262797172886845370787834252696452508990180653986408639793643709772544188552558764310350000000000000000000000000000000000000000,
  12527543709219774820777160261849580147322546715690572366287739605642116130466643007751553000000000000000000000000000000000000000,
  11781979098340476296185837765601990637322190075416935874574643842911663042030461504360290000000000000000000000000000000000000000,
  11026717005109282946614292149796680417181916886642038673016820054671010924156416251086000000000000000000000000000000000000000000,
  10262379079208464501097310120688706997707310550733542717950308911873067953407398368411430000000000000000000000000000000000000000,
  9489594445412503417993949975679089118838557987505300700284594473385471830974834341896390000000000000000000000000000000000000000,
  8708999189264292044889412972353281739516832829917428981052150007223297537049337091064200000000000000000000000000000000000000000,
  7921235840144562482528027971247330121106796512985087992872666053244716113179436616406100000000000000000000000000000000000000000,
  7126952855679476252639222348385476114617195980688702890708438071083845162053967630453700000000000000000000000000000000000000000,
  6326804116444440058135983723106731823618577394598010008799225016619020661253864890548100000000000000000000000000000000000000000,
  5521448454031903758153026799727901048404068014986923520442932822903539275149316014444500000000000000000000000000000000000000000,
  4711549280146583016243033274321319973610498756543463111423880025563729961047437766690600000000000000000000000000000000000000000,
  3897774547727067412870462656170281319154628740766357700216652116886179286677261450636400000000000000000000000000000000000000000,
  3080798002552169302263163316226345242001011558615372681846579799415551730317997622105900000000000000000000000000000000000000000,
  2261306954162050301581049804592329257155686111293619405849925280946867245686343983956300000000000000000000000000000000000000000,
  1440060408440114751051070783220441407815441268957188906423965627618551579823528076741440000000000000000000000000000000000000000,
  618845585493223424278449042418914764801589245407557757735496670452623332240829718132373000000000000000000000000000000000000000]

/-- `case 110` (Util/Gauss_Legendre_Nodes_and_Weights.hpp:29814-30316), `nodes`. -/
def nodes110 : List Int := [
  -999763194109853286321676694275733966632838428873259330155050085904831210536368314667620256063606588264817056510490341927833821520,
  -998752494089401597367182492931261843150301520983867568825526546295452687850663527817364029145586157852080582631060189679112084240,
  -996935024690191162091585102102029279323940077728454745442681517450143514270712377080067346769701946196003173176323242735270401790,
  -994311850823600121067410908821636627760838197443075172841294798546396143597990906764388795008377329343184853684912997805065982450,
  -990885043159995250227202243771303787482613813507552432727556167754158809268262292797203763349668885664908370254829190386053299580,
  -986657359588478746663753910130079725603622638899282887031978847448862491687829581104777438450549381840859194084378936418391457360,
  -981632213192040526124427001604641271758291500064690603506542095820812235711445970351864263862569899849652688452491729164743975870,
  -975813663934758919548813068759284678409023574057403261809333593614004444980732872936426545546173759050387582064178544279414955900,
  -969206413903879355841480810039067181608008752721603882565472102498509986023015070218898229001175226775462627353514441585942193330,
  -961815803018185106050625024544961902548090655210718423037394692310033333969339493442869373835714211466455488693820279220195340510,
  -953647804520908752138177708099273676414252430588793894894379750438896256692171229818864688379050842125047649164789467968910521410,
  -944709020068334346687288477205986848547210614042837123901836237005362588978743844337844109917687672792223970100972336577329137490,
  -935006674354058328233926031980539572585823543351895514668856008753881039537930356156487834144917620142270509244409181445937009940,
  -924548609249093418846190247664011363757669149472790645115405540768737350851025278992691734826710083482268197059308629617072822740,
  -913343277452475846107112898083459162983788923930833690226229056306877827186407128773467977980782082629811115883887804696667876310,
  -901399735652953627238206642934393433324850394011728113042947350740401847139431495961098371688808769997175805109148971246250286780,
  -888727637205083009097673284425282769656242354994356365594197723000959073054509291294038216883959693203565283246412649490418433900,
  -875337224324528689398906206146557649649111310881600372888162604694305060036616207823417075320935134061472425146137126315109514520,
  -861239319808273663708312314195569369932838352638960369365525082197914499839680182192812455415288351896273579911190821752673621490,
  -846445318286094444256727509551566998575199578079065348121532274761500209701967088473386822918919719642481173131087611825507794440,
  -830967177010177855448988276925121886192377843457393009878883801110225986250533048423882997920333351701225965723788059453696881210,
  -814817406190207255081086050115798698720263675045885282273201838061468468469171858965920287347401650869436420117644504575492391320,
  -798009058881658242179467496807356438073907710512723008089770762944513842987188768352875729858283710560872085718303386408812178570,
  -780555720435431474710280578567769784539007280455501838705207712129971667918278771125848976949738072242466873737964904782479593770,
  -762471497517320791784383524056098500605500391266500253693755776602633096371777382429635869768254196768373543629171399153912831550,
  -743771006706172462158267871722877652074274769069760844509996410024128238012636884895673875505609546201033377782928082343205234810,
  -724469362679938216197958034493973882488619880565605352169553470398987921528494026092089182319270704061141599450049916875199135280,
  -704582165999161890710545898074813880911481420281868119179346107434679805464872207279818961499184561713215305479386643126608136140,
  -684125490497767586022920261091602712642799845539709795143100792509361932232042630011151485103511947387467547064090398202104526890,
  -663115870291336441340899097319909076013966717190066059917321452070373713428546419519311221449246357849265739826803404276905058910,
  -641570286413369531017822146105182236286640032159646596643614766778239168537338985969546632941901993229782490332138823020562793170,
  -619506153090335915885591746652110110607378840853227482155809049176802092586327696971634470091592685055941515377187387600774867130,
  -596941303666597431963022273430827805300515512791315973795846205294952481676928366686080821438168493613741898483566896714374261390,
  -573893976190585208831097444130959866116883679940763406953477811814757901934442141429970492469532004400645555821581722493826816830,
  -550382798673877006616045331484758460149601845458631638490954656098053593009056845188746652280194612471454837178679999627731899100,
  -526426774035089058444345923680483907720278647161131696391327956749664927549394074362366858402211977830997961242742677294071012150,
  -502045264740751015097227523653555257004922058920764580729290880274393853032957811784804262966800170790707914123527200909617932660,
  -477257977155577621222419619845168602413873014297816275767077553119218160180144345103048927390604922344729514306168336112241694350,
  -452084945614785721529193953576913084595231525633589755885019911258420852815295750575166254642910539803160844333832017990977684210,
  -426546516231329919220536659344078583028294782682617541203712900127531467696178116477352813767970840892389842296829518792584088050,
  -400663330451144511716945706748891557142113949141342584167220896089423698105213310156296672554409799597063234182581022861212938520,
  -374456308369683041479964735382909056373429983559951027897245410337381382762442901021232242082890623138028302225079542996435497190,
  -347946631823239760830024332298258960758946369400949706579585974716385149329649304029330601424671987136827391679432764901866708990,
  -321155727268719365322401702045806193320257078569422087053310763877460548289857860869030678269449494178691901437450885772772115850,
  -294105248465692354976229133983052369406234410803445391992574057828163745149299311380658973150395709424439259001694168739538931740,
  -266817058974733199434268701609685425290851610160632978031469061734096979225931276254677478642385793067888119200581717576524932330,
  -239313214486186983692279204484016526682292321806887953755718389237917796824691651420881923015593941324019444507432072058847764360,
  -211615944993647276025424393237274499848054489507662617072794015010280670103487215603979977882981519933827602882238678979760018800,
  -183747636826553478882213490679498038372371090719666719578206830279939593235012679738123234378712968874501649116411834984334636450,
  -155730814556429795750015270074270396106138735547469143756817644148486181130720740368649438418141029312152604906641543560793590910,
  -127588122791390080577953622538061366823827328403358653702256661744639817446596009882227006068764376096200635731382906244925032810,
  -99342307873623148948913291426888348723654614003828894297047376973854428076490201096841799797529202288527120429265349050799511656,
  -71016199494651548999647243524594601774443982190116431783339546276186900572964512264852810711471594111372555860789213404570150103,
  -42632692243223251846010301462980094372702857363479148033982880901419009802537510021299051233897075842172833926703487317865221101,
  -14214727100750172360867510094983448461628673762606615359991229220134574793175433068398455697956479825220613632118089280593423722,
  14214727100750172360867510094983448461628673762606615359991229220134574793175433068398455697956479825220613632118089280593423722,
  42632692243223251846010301462980094372702857363479148033982880901419009802537510021299051233897075842172833926703487317865221101,
  71016199494651548999647243524594601774443982190116431783339546276186900572964512264852810711471594111372555860789213404570150103,
  99342307873623148948913291426888348723654614003828894297047376973854428076490201096841799797529202288527120429265349050799511656,
  127588122791390080577953622538061366823827328403358653702256661744639817446596009882227006068764376096200635731382906244925032810,
  155730814556429795750015270074270396106138735547469143756817644148486181130720740368649438418141029312152604906641543560793590910,
  183747636826553478882213490679498038372371090719666719578206830279939593235012679738123234378712968874501649116411834984334636450,
  211615944993647276025424393237274499848054489507662617072794015010280670103487215603979977882981519933827602882238678979760018800,
  239313214486186983692279204484016526682292321806887953755718389237917796824691651420881923015593941324019444507432072058847764360,
  266817058974733199434268701609685425290851610160632978031469061734096979225931276254677478642385793067888119200581717576524932330,
  294105248465692354976229133983052369406234410803445391992574057828163745149299311380658973150395709424439259001694168739538931740,
  321155727268719365322401702045806193320257078569422087053310763877460548289857860869030678269449494178691901437450885772772115850,
  347946631823239760830024332298258960758946369400949706579585974716385149329649304029330601424671987136827391679432764901866708990,
  374456308369683041479964735382909056373429983559951027897245410337381382762442901021232242082890623138028302225079542996435497190,
  400663330451144511716945706748891557142113949141342584167220896089423698105213310156296672554409799597063234182581022861212938520,
  426546516231329919220536659344078583028294782682617541203712900127531467696178116477352813767970840892389842296829518792584088050,
  452084945614785721529193953576913084595231525633589755885019911258420852815295750575166254642910539803160844333832017990977684210,
  477257977155577621222419619845168602413873014297816275767077553119218160180144345103048927390604922344729514306168336112241694350,
  502045264740751015097227523653555257004922058920764580729290880274393853032957811784804262966800170790707914123527200909617932660,
  526426774035089058444345923680483907720278647161131696391327956749664927549394074362366858402211977830997961242742677294071012150,
  550382798673877006616045331484758460149601845458631638490954656098053593009056845188746652280194612471454837178679999627731899100,
  573893976190585208831097444130959866116883679940763406953477811814757901934442141429970492469532004400645555821581722493826816830,
  596941303666597431963022273430827805300515512791315973795846205294952481676928366686080821438168493613741898483566896714374261390,
  619506153090335915885591746652110110607378840853227482155809049176802092586327696971634470091592685055941515377187387600774867130,
  641570286413369531017822146105182236286640032159646596643614766778239168537338985969546632941901993229782490332138823020562793170,
  663115870291336441340899097319909076013966717190066059917321452070373713428546419519311221449246357849265739826803404276905058910,
  684125490497767586022920261091602712642799845539709795143100792509361932232042630011151485103511947387467547064090398202104526890,
  704582165999161890710545898074813880911481420281868119179346107434679805464872207279818961499184561713215305479386643126608136140,
  724469362679938216197958034493973882488619880565605352169553470398987921528494026092089182319270704061141599450049916875199135280,
  743771006706172462158267871722877652074274769069760844509996410024128238012636884895673875505609546201033377782928082343205234810,
  762471497517320791784383524056098500605500391266500253693755776602633096371777382429635869768254196768373543629171399153912831550,
  780555720435431474710280578567769784539007280455501838705207712129971667918278771125848976949738072242466873737964904782479593770,
  798009058881658242179467496807356438073907710512723008089770762944513842987188768352875729858283710560872085718303386408812178570,
  814817406190207255081086050115798698720263675045885282273201838061468468469171858965920287347401650869436420117644504575492391320,
  830967177010177855448988276925121886192377843457393009878883801110225986250533048423882997920333351701225965723788059453696881210,
  846445318286094444256727509551566998575199578079065348121532274761500209701967088473386822918919719642481173131087611825507794440,
  861239319808273663708312314195569369932838352638960369365525082197914499839680182192812455415288351896273579911190821752673621490,
  875337224324528689398906206146557649649111310881600372888162604694305060036616207823417075320935134061472425146137126315109514520,
  888727637205083009097673284425282769656242354994356365594197723000959073054509291294038216883959693203565283246412649490418433900,
  901399735652953627238206642934393433324850394011728113042947350740401847139431495961098371688808769997175805109148971246250286780,
  913343277452475846107112898083459162983788923930833690226229056306877827186407128773467977980782082629811115883887804696667876310,
  924548609249093418846190247664011363757669149472790645115405540768737350851025278992691734826710083482268197059308629617072822740,
  935006674354058328233926031980539572585823543351895514668856008753881039537930356156487834144917620142270509244409181445937009940,
  944709020068334346687288477205986848547210614042837123901836237005362588978743844337844109917687672792223970100972336577329137490,
  953647804520908752138177708099273676414252430588793894894379750438896256692171229818864688379050842125047649164789467968910521410,
  961815803018185106050625024544961902548090655210718423037394692310033333969339493442869373835714211466455488693820279220195340510,
  969206413903879355841480810039067181608008752721603882565472102498509986023015070218898229001175226775462627353514441585942193330,
  975813663934758919548813068759284678409023574057403261809333593614004444980732872936426545546173759050387582064178544279414955900,
  981632213192040526124427001604641271758291500064690603506542095820812235711445970351864263862569899849652688452491729164743975870,
  986657359588478746663753910130079725603622638899282887031978847448862491687829581104777438450549381840859194084378936418391457360,
  990885043159995250227202243771303787482613813507552432727556167754158809268262292797203763349668885664908370254829190386053299580,
  994311850823600121067410908821636627760838197443075172841294798546396143597990906764388795008377329343184853684912997805065982450,
  996935024690191162091585102102029279323940077728454745442681517450143514270712377080067346769701946196003173176323242735270401790,
  998752494089401597367182492931261843150301520983867568825526546295452687850663527817364029145586157852080582631060189679112084240,
  999763194109853286321676694275733966632838428873259330155050085904831210536368314667620256063606588264817056510490341927833821520]

/-- `case 110` (Util/Gauss_Legendre_Nodes_and_Weights.hpp:29814-30316), `weights`. -/
def weights110 : List Nat := [
  607696399185811157682957193019307629678091349644673419790860114337621441443415591204050000000000000000000000000000000000000000,
  1414124876000180943169259254649263513122388207495762611220424378564950823297684914810900000000000000000000000000000000000000000,
  2220605461916845919091207526386149637224701639074850446976727940392626344587780698801100000000000000000000000000000000000000000,
  3025395074334186745772105323549760946321509038461296978897946244052464602291036823714700000000000000000000000000000000000000000,
  3827760264998826403650757364331852727538700322154376232092279564465436500874260308660600000000000000000000000000000000000000000,
  4627037917059880564108501282768494157692013780329675839473710997055053836883008692432400000000000000000000000000000000000000000,
  5422578140584141378012023532453963283142190394488110340410021233981385856871264635106300000000000000000000000000000000000000000,
  6213736622429000879705277249440836682676901936031074913604530191089946340009174020399700000000000000000000000000000000000000000,
  6999873378101307581206198869309482338378782165333212953368448219776692843997894394846400000000000000000000000000000000000000000,
  7780352771008987430947912058826680221931079144476339706746425609123288305836899315932200000000000000000000000000000000000000000,
  8554543857939940388286617835346051977107444486575342822244132480196585081622364516056200000000000000000000000000000000000000000,
  9321820833954470393571840253252431669728373513269882261286976121166990370956031170996000000000000000000000000000000000000000000,
  10081563510269796136110405856143458908257046512142502539742560543908380509117125393743900000000000000000000000000000000000000000,
  10833157802507093921488939819260199256043336462672276123252901335571773051733553523733870000000000000000000000000000000000000000,
  11575996220526708448973476781641050020414895019246161333777349920307936761550987781862760000000000000000000000000000000000000000,
  12309478355999680133814912134394418730307858073757030001055488555905350951963544667632010000000000000000000000000000000000000000,
  13033011365785757625195242971461525812843648300442790605783828140255030088343899286539215000000000000000000000000000000000000000,
  13746010450000572260922126478355510841923317287034008552035057278757891623716513901044919000000000000000000000000000000000000000,
  14447899324022878377220455365140929715636033964684370353887044891902489197424372123584076600000000000000000000000000000000000000,
  15138110683870755446745668235367203326081254614522776758002706016088995711607623351381620500000000000000000000000000000000000000,
  15816086664467433012261653581704526923762871599555188524182467332654657231843374174566186290000000000000000000000000000000000000,
  16481279290368142707133755583496522779076532380677769319299826937239059221454141992453804250000000000000000000000000000000000000,
  17133150918549819301357320070292328094414090863887302001539068325245554866545022390693304398000000000000000000000000000000000000,
  17771174672885481708797162512284492972058063462757465446137657296108255065513532233377375260000000000000000000000000000000000000,
  18394834869939672413264812617639682324670730540745032174964902300566877499777796197075154670900000000000000000000000000000000000,
  19003627435732977355415390619380607565191117594645664371040810488733596806508350931960055163530000000000000000000000000000000000,
  19597060313133752545642094940016340805320617900015661319918006470464416144188449705499833548375000000000000000000000000000000000,
  20174653859544497063250117363101089167863338392577952133502078926347519001985826874897542763744000000000000000000000000000000000,
  20735941234559255167102064015856731716264559585760413193807364267718492456424485633120862152029800000000000000000000000000000000,
  21280468777277243839366295289208899297823781873748243993325839119310764062015199511224564719968240000000000000000000000000000000,
  21807796372966726136563387100126265063547748737374108962374312161222066348107335715943145326556256000000000000000000000000000000,
  22317497808782067069216522173777278916359457916522064397302171728674658691310906753422849996197495600000000000000000000000000000,
  22809161118245965029873260311711066171711081465580888668636463872161804021364315588691197363546952000000000000000000000000000000,
  23282388914218075151416575170633589407033295883488127515646708085965179458304106900954064265020254330000000000000000000000000000,
  23736798710080645914320303084370957787231507338517561566671460372528165013701922387603448309898973073000000000000000000000000000,
  24172023228881383459196576514371083199745227942347395021042640398438782448047128725437253062551804470300000000000000000000000000,
  24587710700183540993911899445114862797169999201610764957331985200701893796346693788921650830823849105770000000000000000000000000,
  24983525144383201729724618867019437083078134921434388390595946361682924132431918860396210394702296983267000000000000000000000000,
  25359146644263879075454810316947348740919014684906050552339672148042986939383209431157114713907700939825880000000000000000000000,
  25714271603568892017135881321511971306608152796281570720252416492353461826241627518606609324027736488373022000000000000000000000,
  26048612992382480334740760134122840099840418866265084125342432483489838349253806815610814065851053838431297100000000000000000000,
  26361900579121296441563103230268695939532387684806253386875084605871860657052741526934361021244974516442309120000000000000000000,
  26653881148948740518671124372057761844752343896384016610811253984217731869643652740299515710928352510044711904000000000000000000,
  26924318708435585191660734163053919073925134863722952843813649231172873330006033291610284621725272268404840925400000000000000000,
  27172994676301456879012978235933188270249936173590031151947880443243317838260257840651857331317807109055661467000000000000000000,
  27399708060082994499139087085175887412100973627503729328442308393150883726034241691167147615983636050423169249791800000000000000,
  27604275618585883621184279990970577091330159005663376634602570114659137605868535703630934343928276374743874562334250000000000000,
  27786532009989456378302765774872323156050068215753486893132602814653788067933942110493949283260796343951136892226758700000000000,
  27946329925484145384459083570668956423132815273951407769680294929057499865534749793294801500001599655689036140509305650000000000,
  28083540208333774238587098991762044317487758567421994223313089667147303924868480992838154420231243627981543401238172832000000000,
  28198051958266448590799104677718776967905659802326347519025733062052752933092387464221906408808361577807219544396183939380000000,
  28289772621109670722427043029459366993164663076734124204307003777458453363700914303776173846613430679531693051844027505034000000,
  28358628063597227616349269677311957104181942333148337662719725645869777668224639612382452646120933050494891978470423132728280000,
  28404562633287387962293153771921549042975238904134953822008103960385642525647105742607922034511425744552565396324793690432112000,
  28427539203543977794730027011038502747471608414323775800417048824507132999254729941994468863262997566917988545605208139468146110,
  28427539203543977794730027011038502747471608414323775800417048824507132999254729941994468863262997566917988545605208139468146110,
  28404562633287387962293153771921549042975238904134953822008103960385642525647105742607922034511425744552565396324793690432112000,
  28358628063597227616349269677311957104181942333148337662719725645869777668224639612382452646120933050494891978470423132728280000,
  28289772621109670722427043029459366993164663076734124204307003777458453363700914303776173846613430679531693051844027505034000000,
  28198051958266448590799104677718776967905659802326347519025733062052752933092387464221906408808361577807219544396183939380000000,
  28083540208333774238587098991762044317487758567421994223313089667147303924868480992838154420231243627981543401238172832000000000,
  27946329925484145384459083570668956423132815273951407769680294929057499865534749793294801500001599655689036140509305650000000000,
  27786532009989456378302765774872323156050068215753486893132602814653788067933942110493949283260796343951136892226758700000000000,
  27604275618585883621184279990970577091330159005663376634602570114659137605868535703630934343928276374743874562334250000000000000,
  27399708060082994499139087085175887412100973627503729328442308393150883726034241691167147615983636050423169249791800000000000000,
  27172994676301456879012978235933188270249936173590031151947880443243317838260257840651857331317807109055661467000000000000000000,
  26924318708435585191660734163053919073925134863722952843813649231172873330006033291610284621725272268404840925400000000000000000,
  26653881148948740518671124372057761844752343896384016610811253984217731869643652740299515710928352510044711904000000000000000000,
  26361900579121296441563103230268695939532387684806253386875084605871860657052741526934361021244974516442309120000000000000000000,
  26048612992382480334740760134122840099840418866265084125342432483489838349253806815610814065851053838431297100000000000000000000,
  25714271603568892017135881321511971306608152796281570720252416492353461826241627518606609324027736488373022000000000000000000000,
  25359146644263879075454810316947348740919014684906050552339672148042986939383209431157114713907700939825880000000000000000000000,
  24983525144383201729724618867019437083078134921434388390595946361682924132431918860396210394702296983267000000000000000000000000,
  24587710700183540993911899445114862797169999201610764957331985200701893796346693788921650830823849105770000000000000000000000000,
  24172023228881383459196576514371083199745227942347395021042640398438782448047128725437253062551804470300000000000000000000000000,
  23736798710080645914320303084370957787231507338517561566671460372528165013701922387603448309898973073000000000000000000000000000,
  23282388914218075151416575170633589407033295883488127515646708085965179458304106900954064265020254330000000000000000000000000000,
  22809161118245965029873260311711066171711081465580888668636463872161804021364315588691197363546952000000000000000000000000000000,
  22317497808782067069216522173777278916359457916522064397302171728674658691310906753422849996197495600000000000000000000000000000,
  21807796372966726136563387100126265063547748737374108962374312161222066348107335715943145326556256000000000000000000000000000000,
  21280468777277243839366295289208899297823781873748243993325839119310764062015199511224564719968240000000000000000000000000000000,
  20735941234559255167102064015856731716264559585760413193807364267718492456424485633120862152029800000000000000000000000000000000,
  20174653859544497063250117363101089167863338392577952133502078926347519001985826874897542763744000000000000000000000000000000000,
  19597060313133752545642094940016340805320617900015661319918006470464416144188449705499833548375000000000000000000000000000000000,
  19003627435732977355415390619380607565191117594645664371040810488733596806508350931960055163530000000000000000000000000000000000,
  18394834869939672413264812617639682324670730540745032174964902300566877499777796197075154670900000000000000000000000000000000000,
  17771174672885481708797162512284492972058063462757465446137657296108255065513532233377375260000000000000000000000000000000000000,
  17133150918549819301357320070292328094414090863887302001539068325245554866545022390693304398000000000000000000000000000000000000,
  16481279290368142707133755583496522779076532380677769319299826937239059221454141992453804250000000000000000000000000000000000000,
  15816086664467433012261653581704526923762871599555188524182467332654657231843374174566186290000000000000000000000000000000000000,
  15138110683870755446745668235367203326081254614522776758002706016088995711607623351381620500000000000000000000000000000000000000,
  14447899324022878377220455365140929715636033964684370353887044891902489197424372123584076600000000000000000000000000000000000000,
  13746010450000572260922126478355510841923317287034008552035057278757891623716513901044919000000000000000000000000000000000000000,
  13033011365785757625195242971461525812843648300442790605783828140255030088343899286539215000000000000000000000000000000000000000,
  12309478355999680133814912134394418730307858073757030001055488555905350951963544667632010000000000000000000000000000000000000000,
  11575996220526708448973476781641050020414895019246161333777349920307936761550987781862760000000000000000000000000000000000000000,
  10833157802507093921488939819260199256043336462672276123252901335571773051733553523733870000000000000000000000000000000000000000,
  10081563510269796136110405856143458908257046512142502539742560543908380509117125393743900000000000000000000000000000000000000000,
  9321820833954470393571840253252431669728373513269882261286976121166990370956031170996000000000000000000000000000000000000000000,
  8554543857939940388286617835346051977107444486575342822244132480196585081622364516056200000000000000000000000000000000000000000,
  7780352771008987430947912058826680221931079144476339706746425609123288305836899315932200000000000000000000000000000000000000000,
  6999873378101307581206198869309482338378782165333212953368448219776692843997894394846400000000000000000000000000000000000000000,
  6213736622429000879705277249440836682676901936031074913604530191089946340009174020399700000000000000000000000000000000000000000,
  5422578140584141378012023532453963283142190394488110340410021233981385856871264635106300000000000000000000000000000000000000000,
  4627037917059880564108501282768494157692013780329675839473710997055053836883008692432400000000000000000000000000000000000000000,
  3827760264998826403650757364331852727538700322154376232092279564465436500874260308660600000000000000000000000000000000000000000,
  3025395074334186745772105323549760946321509038461296978897946244052464602291036823714700000000000000000000000000000000000000000,
  2220605461916845919091207526386149637224701639074850446976727940392626344587780698801100000000000000000000000000000000000000000,
  1414124876000180943169259254649263513122388207495762611220424378564950823297684914810900000000000000000000000000000000000000000,
  607696399185811157682957193019307629678091349644673419790860114337621441443415591204050000000000000000000000000000000000000000]

end Verif.Gauss
