/-!
The literals of `Util/Gauss_Legendre_Nodes_and_Weights.hpp` for 65 to 90 nodes, in the order of the
assignments, as numerators over `10^129` (no literal has more decimals). No import.
-/

namespace Verif.Gauss

/-- `case 65` (Util/Gauss_Legendre_Nodes_and_Weights.hpp:10772-11100), `nodes`. -/
def nodes65 : List Int := [
  -999326097075412877265693611242147839727936466325934718534634392923578622263218476987116319919401571747788220849848256550338973570,
  -996450948061849163055794938322130784199571786197431583209456839944666626197425661497834911960393451757188539334944891806626754060,
  -991285276176801668721821181065551813882318586387069530476188957319050556434655401532635126006637344279178876547737249793203781600,
  -983839812187034941377637781406066151386596195195840347940154664301641751229346297864964437145432364164071757586009468532901406280,
  -974131539833551169074967887390882895028016694010165647868438733851374517786099658265464023564428043266423617570167339006670075230,
  -962182754718055237711983746467235152493900785656861058420910617429019140195238741323578166924514158189272606640358217698831652960,
  -948020928168407506373769740729286442950295938040169401530274207184130910945069393670023267629657583048389927522504371211828532110,
  -931678628228749337965676987346386047829031407175708404370343170213628045032475449394039192392230186590782399594442663900812395650,
  -913193440542846261736546920982943797907473542612764773495297274763444806864594502311366578927863800507646504386548801911841009870,
  -892607880504738931423285539697500346473871357358717608638292772723714366257324435714774094873680961808968736286974209936266597880,
  -869969294926407036194131958064681326980026934032477641896787374990546426255202230130671167680522243878392941083612673179014977570,
  -845329752899930283942450040735212240645846705304993510641366096400365597398030463769698484081938382470876987236231245448033241340,
  -818745925922651453433919137325798496917470913855979812651954307299958564607336766215497950574800180250371217468985543225420642150,
  -790278957492121843047380416074025449215359039597379682294453725786342056608382486768052593297626064735900833656962400780703909740,
  -759994322441999786873982753116218181338218039483768300965548458172326267742109958798232183843725278201461586192633650197507764780,
  -727961676329424679011973729293198108794050778992376341221390828273747723370852326041540760837357544619199071935501102128683942880,
  -694254695213991633552622479947644856920515978561826500252949622560746539744707974040058484789874659864486293728801872553205011760,
  -658950906193625133040940771960806243984938646175240435144978280668573627799612477847937046900134247702080018195908767498016290240,
  -622131509085400241582599551863802289196064895999243565402201640209918850652628165015786864025370947905661998941837537495142048070,
  -583881189660487313327154462431943612843680166213011755086401542659498442923055128867079900468198051308469016213671740046563289130,
  -544287924862227138545572479747507013226531789982564449442946506078105505694263273193736802921249672822852533127327299151867955340,
  -503442780455006882341043051391038431794343020784289443469465396854220670949530555504035906408667733722877752010231776426023728460,
  -461439701569145057697834100101223929269113888048437131572873348070273056708046957654669974957016544102060754064866862290801883940,
  -418375296623409009264199010752990903447747721439028789971312431445898131424610624989168325318957294093616977229700633277675429980,
  -374348615122066012008793890843023997261194798157029527361332258735847044710050572609805893551150890179341273110991515861209923710,
  -329460919837486407645286712412878443905650240023146394535201170570500341490441363672640736193248310206524307879584019014418448710,
  -283815453902248730617655425960476713778729938071873555665796519888657382033820179256436904048493465543485711553901288345220763810,
  -237517203346416806570712427321939481992152527530063084447985458077142571238016795785957896873580407269895207541194680690541777480,
  -190672655626142769774912359066004515727978438359738358839700030358453872206602136518725032501976576571025533980401067358849219730,
  -143389554698975171131249621985861443718057413189041357772087263912517727238388739024495529578996334343325844618229243113163822150,
  -95776653209197505652218554542447810224336978539903614336360230900651438648143496518134753405759938281944354967939563102252522434,
  -47943462353171857522529754289934847942341746495198005914888872602020028356349390679060193351286109481218897938756742664402405062,
  0,
  47943462353171857522529754289934847942341746495198005914888872602020028356349390679060193351286109481218897938756742664402405062,
  95776653209197505652218554542447810224336978539903614336360230900651438648143496518134753405759938281944354967939563102252522434,
  143389554698975171131249621985861443718057413189041357772087263912517727238388739024495529578996334343325844618229243113163822150,
  190672655626142769774912359066004515727978438359738358839700030358453872206602136518725032501976576571025533980401067358849219730,
  237517203346416806570712427321939481992152527530063084447985458077142571238016795785957896873580407269895207541194680690541777480,
  283815453902248730617655425960476713778729938071873555665796519888657382033820179256436904048493465543485711553901288345220763810,
  329460919837486407645286712412878443905650240023146394535201170570500341490441363672640736193248310206524307879584019014418448710,
  374348615122066012008793890843023997261194798157029527361332258735847044710050572609805893551150890179341273110991515861209923710,
  418375296623409009264199010752990903447747721439028789971312431445898131424610624989168325318957294093616977229700633277675429980,
  461439701569145057697834100101223929269113888048437131572873348070273056708046957654669974957016544102060754064866862290801883940,
  503442780455006882341043051391038431794343020784289443469465396854220670949530555504035906408667733722877752010231776426023728460,
  544287924862227138545572479747507013226531789982564449442946506078105505694263273193736802921249672822852533127327299151867955340,
  583881189660487313327154462431943612843680166213011755086401542659498442923055128867079900468198051308469016213671740046563289130,
  622131509085400241582599551863802289196064895999243565402201640209918850652628165015786864025370947905661998941837537495142048070,
  658950906193625133040940771960806243984938646175240435144978280668573627799612477847937046900134247702080018195908767498016290240,
  694254695213991633552622479947644856920515978561826500252949622560746539744707974040058484789874659864486293728801872553205011760,
  727961676329424679011973729293198108794050778992376341221390828273747723370852326041540760837357544619199071935501102128683942880,
  759994322441999786873982753116218181338218039483768300965548458172326267742109958798232183843725278201461586192633650197507764780,
  790278957492121843047380416074025449215359039597379682294453725786342056608382486768052593297626064735900833656962400780703909740,
  818745925922651453433919137325798496917470913855979812651954307299958564607336766215497950574800180250371217468985543225420642150,
  845329752899930283942450040735212240645846705304993510641366096400365597398030463769698484081938382470876987236231245448033241340,
  869969294926407036194131958064681326980026934032477641896787374990546426255202230130671167680522243878392941083612673179014977570,
  892607880504738931423285539697500346473871357358717608638292772723714366257324435714774094873680961808968736286974209936266597880,
  913193440542846261736546920982943797907473542612764773495297274763444806864594502311366578927863800507646504386548801911841009870,
  931678628228749337965676987346386047829031407175708404370343170213628045032475449394039192392230186590782399594442663900812395650,
  948020928168407506373769740729286442950295938040169401530274207184130910945069393670023267629657583048389927522504371211828532110,
  962182754718055237711983746467235152493900785656861058420910617429019140195238741323578166924514158189272606640358217698831652960,
  974131539833551169074967887390882895028016694010165647868438733851374517786099658265464023564428043266423617570167339006670075230,
  983839812187034941377637781406066151386596195195840347940154664301641751229346297864964437145432364164071757586009468532901406280,
  991285276176801668721821181065551813882318586387069530476188957319050556434655401532635126006637344279178876547737249793203781600,
  996450948061849163055794938322130784199571786197431583209456839944666626197425661497834911960393451757188539334944891806626754060,
  999326097075412877265693611242147839727936466325934718534634392923578622263218476987116319919401571747788220849848256550338973570]

/-- `case 65` (Util/Gauss_Legendre_Nodes_and_Weights.hpp:10772-11100), `weights`. -/
def weights65 : List Nat := [
  1729258251300250898339585146303937795956196412478488400391823149294734981677058721089433677996339024746200000000000000000000000,
  4021524172003736347078659952828750484682229503196825169737891071124374245360014003374720865593993493090000000000000000000000000,
  6307942578971754550188871903861571090279386408858126188304027629584239466039461418383716461609354776182000000000000000000000000,
  8580148266881459893635812159198126343786211791264701886661215417876832457503429720079269804636993588865000000000000000000000000,
  10832678789597968621514055127202260927180673722162513934561625679572082648814753240594302372962300642640000000000000000000000000,
  13060311639994846336168342921915517218828820044944181338001787237871320262329972536222713486491909179360000000000000000000000000,
  15257912146448310349265388144622811723137205142411717301759274717697258712001428442476610535829998906923000000000000000000000000,
  17420421997670248495365759969198058192072383507692238748811551584106110150479317423841115814653571397029000000000000000000000000,
  19542865836750062826837429313001196837510010477939859004782799663915813726877534213743606863946976193419000000000000000000000000,
  21620361284934062841654274667486371250537736574834019257173184025676041476717965234715462051691522773807000000000000000000000000,
  23648129691287236698780978993990131747331501218795032726565166860569403907371060996078195023842096539243000000000000000000000000,
  25621506938037758214084978693548108742427979919407677556879683190318371237832678615386406293434775709780700000000000000000000000,
  27535954088450343942499722327113837613386983403911123649892407825000190834626109002167722634788923092051600000000000000000000000,
  29387067789310668062644859209773740072075997795494134387175723348719810005469501246042478754989879614653130000000000000000000000,
  31170590380189142464431845776661060882969505846274630342438746177953725850442611070190304847269246925881064000000000000000000000,
  32882419676368574984049638008142312924476497398366151616602026565219265192798600563972750794283186056520825500000000000000000000,
  34518618398549058625221276859392513426522341351644917745470190119806608716998802658697479253242445354794762300000000000000000000,
  36075423225565273932166270524453599369509513999619874450198322189250698787680704539083075986215907088640931630000000000000000000,
  37549253448257709809772223198253436633992426687939409607899008326461487451882823360732933276479851111680422786000000000000000000,
  38936719204051197616673806363947097389082695994547015561282473534569183320863033725167923501593447663823414334000000000000000000,
  40234629273005533815446337743375698040519732122633137071534447063191279664026333830054046258791884271761338037220000000000000000,
  41439998417240293022686299232543185976714007750429732127059835347509293071270580575454915222285209220112504889047000000000000000,
  42550054246755802719217150802653740562425639002498397352345236031144882735632063881844184283980081645872286790152900000000000000,
  43562243595800486532284821661398645749091268023060738453574020345754022665794059587336820212373271231144036959987970000000000000,
  44474238395082974427323503999946024279481705073928960378452744318020225175733456293293422595173342432239217140390140000000000000,
  45283941026300230657128240574179976407060576145916782481769972575126575140820647815591851205277419460890878519664995300000000000,
  45989489146651696963893390817834505025039387426580683918862833857078616159421096504693092643878612485295548988763073784000000000,
  46589259972233498302255136789692734310252235961481299441974844513049003043116076732127842720951796714673389376968318255400000000,
  47081874010454522246006808290162367018674360417859002498902617990427137958001257500453458035881041596190262879141069064950000000,
  47466198232885503152644458740025914220823508943878613840515706508077967970716813258185116232407406897915256825354444292116100000,
  47741348681240621559038972226556027082857963274244670165913981013906168371744563124177229989646113253414585836110435845899450000,
  47906692500495862031347289176226365615511175206237667345655301266117032138985958308361231013027429952473411911903491456523089100,
  47961849394466618120707621369020750091604286898935352097699061712020484941940463712773134569547343409774577860769251648055600704,
  47906692500495862031347289176226365615511175206237667345655301266117032138985958308361231013027429952473411911903491456523089100,
  47741348681240621559038972226556027082857963274244670165913981013906168371744563124177229989646113253414585836110435845899450000,
  47466198232885503152644458740025914220823508943878613840515706508077967970716813258185116232407406897915256825354444292116100000,
  47081874010454522246006808290162367018674360417859002498902617990427137958001257500453458035881041596190262879141069064950000000,
  46589259972233498302255136789692734310252235961481299441974844513049003043116076732127842720951796714673389376968318255400000000,
  45989489146651696963893390817834505025039387426580683918862833857078616159421096504693092643878612485295548988763073784000000000,
  45283941026300230657128240574179976407060576145916782481769972575126575140820647815591851205277419460890878519664995300000000000,
  44474238395082974427323503999946024279481705073928960378452744318020225175733456293293422595173342432239217140390140000000000000,
  43562243595800486532284821661398645749091268023060738453574020345754022665794059587336820212373271231144036959987970000000000000,
  42550054246755802719217150802653740562425639002498397352345236031144882735632063881844184283980081645872286790152900000000000000,
  41439998417240293022686299232543185976714007750429732127059835347509293071270580575454915222285209220112504889047000000000000000,
  40234629273005533815446337743375698040519732122633137071534447063191279664026333830054046258791884271761338037220000000000000000,
  38936719204051197616673806363947097389082695994547015561282473534569183320863033725167923501593447663823414334000000000000000000,
  37549253448257709809772223198253436633992426687939409607899008326461487451882823360732933276479851111680422786000000000000000000,
  36075423225565273932166270524453599369509513999619874450198322189250698787680704539083075986215907088640931630000000000000000000,
  34518618398549058625221276859392513426522341351644917745470190119806608716998802658697479253242445354794762300000000000000000000,
  32882419676368574984049638008142312924476497398366151616602026565219265192798600563972750794283186056520825500000000000000000000,
  31170590380189142464431845776661060882969505846274630342438746177953725850442611070190304847269246925881064000000000000000000000,
  29387067789310668062644859209773740072075997795494134387175723348719810005469501246042478754989879614653130000000000000000000000,
  27535954088450343942499722327113837613386983403911123649892407825000190834626109002167722634788923092051600000000000000000000000,
  25621506938037758214084978693548108742427979919407677556879683190318371237832678615386406293434775709780700000000000000000000000,
  23648129691287236698780978993990131747331501218795032726565166860569403907371060996078195023842096539243000000000000000000000000,
  21620361284934062841654274667486371250537736574834019257173184025676041476717965234715462051691522773807000000000000000000000000,
  19542865836750062826837429313001196837510010477939859004782799663915813726877534213743606863946976193419000000000000000000000000,
  17420421997670248495365759969198058192072383507692238748811551584106110150479317423841115814653571397029000000000000000000000000,
  15257912146448310349265388144622811723137205142411717301759274717697258712001428442476610535829998906923000000000000000000000000,
  13060311639994846336168342921915517218828820044944181338001787237871320262329972536222713486491909179360000000000000000000000000,
  10832678789597968621514055127202260927180673722162513934561625679572082648814753240594302372962300642640000000000000000000000000,
  8580148266881459893635812159198126343786211791264701886661215417876832457503429720079269804636993588865000000000000000000000000,
  6307942578971754550188871903861571090279386408858126188304027629584239466039461418383716461609354776182000000000000000000000000,
  4021524172003736347078659952828750484682229503196825169737891071124374245360014003374720865593993493090000000000000000000000000,
  1729258251300250898339585146303937795956196412478488400391823149294734981677058721089433677996339024746200000000000000000000000]

/-- `case 66` (Util/Gauss_Legendre_Nodes_and_Weights.hpp:11102-11436), `nodes`. -/
def nodes66 : List Int := [
  -999346209872177882072816984489753403848979817761245522339149118394283165545945473019253892450691513003243040878294745198584717160,
  -996556821089552691122168293627165523147422609860954938006054879813792931136988270245691101411529251228051267766773968646930260800,
  -991545030383375745531762687491502465237964045027890785570991604265777821538242953779552855600353962533954529795316423408864924020,
  -984320904935140132890553113349730451954641606328851890656473730177582541015756130085853833753105691066147082193527330872721782700,
  -974900427746285951855898159795578510090484186910214205004175435475940667884401461941932558853409486739711938825828428631191598340,
  -963304586859257370964861164121587602322143158548154982996624681449208703425413860534960590454141933195959679277365152941713724570,
  -949559246206235339092466777753084072563626669404721795453560890786288354595183689225152542223563071352740830164952386105896248230,
  -933695072544792494372631654664544249101575540342455807882179970788524448221972251623284652430422147489174051235854784080663574020,
  -915747462945207015950429232185650132675736462728937540487955661400004456014245440700349380969122959026036637836631559848834860600,
  -895756464446563938460836342115967918674520563953767039887469729534154873564321046705497941344482796832677683182932295388142827370,
  -873766684166944730401005225238847614070817815072478701444928162944879303942010837509703402079786905553871246669511221793605388450,
  -849827189536016219462098282766272992753464253334736765289955891799931576895551546316063440554720952012051255704044372252394219650,
  -823991398695587611347081960456280207616217687403235901081320334509449706695964256983528263234001807398996729700478039763051540330,
  -796316961245824570532729752983942713705904689774954966173797602936514055070171113832800247437707837852423916151321081511894878880,
  -766865629575319625869542961572164001907062667408906852765266574988553546542703441812868482205152259782226861449076677465375354130,
  -735703121049512799579236998853608089181358039692465954278212678188852989829593722512612915352986765485488128195865412355073752830,
  -702898971358874185836259249186332773833324859759647907632133656543304968265927280979786059755089355778802902133173408764919301250,
  -668526379350967592604287159515839127751556866078531818433254339406182803056916128776580181703970406069388337137579937149349814110,
  -632662043690963169403894629790963211930001398723857427394934688689102941771993737841171610184021696008339477152050685174428017820,
  -595385991714138458327934361973917511629777683415722127391745988022754499158595270939819017352706437717998398238877837574270760400,
  -556781400851723064234947814414697267306050565270026880586365597746193734275777606647913835159605860695261548593706969253686630700,
  -516934413028231513572575402172146270874893104916999538713771458400793302862088656322556964465073613247280993125287445777206950080,
  -475933942444236842961930014463218415035287995158227951538636304725593516335277422438736752527196311322093915000092669573127004310,
  -433871477173370668357695636159347366022314937083437581293619878365549629906162141259997878019405090008902452772119922075723929690,
  -390840875016182949755122144974839972496275272130517696185524176744814517668038894816566294613798802168905803273223695127954231990,
  -346938154066337548899754734326809211560657652280080591616382706366323815210841539892127189108033251098808145194343065479371727920,
  -302261278456436100016128915137292973942246163191935052912940047092387786590567694956126381257709235578841640695890352496295419120,
  -256909939761530222994199579118647798357495906891842155669714355838452119030997125305521814592133496278257183492302667620485445640,
  -210985334548078993474541148946684699703463219276653817934542993615158227304975337668072822525934985840894461161211660583057544140,
  -164589938564714607253650518758744249833372372215304334055172941344723972626047976883629598959404092959348991634269891341211165540,
  -117827278078675997114714302633065447256454282688411790772287807865213515686433302355801843556775137460322854574297816087431324930,
  -70801698868141591289363675136368799824914487247612601542032311158781483790720607161957009411037144009525267429742656046495433873,
  -23618133385924570536223321601961732194958150330201711851033224075009614585054022993206437122918755856693692190008629281224212180,
  23618133385924570536223321601961732194958150330201711851033224075009614585054022993206437122918755856693692190008629281224212180,
  70801698868141591289363675136368799824914487247612601542032311158781483790720607161957009411037144009525267429742656046495433873,
  117827278078675997114714302633065447256454282688411790772287807865213515686433302355801843556775137460322854574297816087431324930,
  164589938564714607253650518758744249833372372215304334055172941344723972626047976883629598959404092959348991634269891341211165540,
  210985334548078993474541148946684699703463219276653817934542993615158227304975337668072822525934985840894461161211660583057544140,
  256909939761530222994199579118647798357495906891842155669714355838452119030997125305521814592133496278257183492302667620485445640,
  302261278456436100016128915137292973942246163191935052912940047092387786590567694956126381257709235578841640695890352496295419120,
  346938154066337548899754734326809211560657652280080591616382706366323815210841539892127189108033251098808145194343065479371727920,
  390840875016182949755122144974839972496275272130517696185524176744814517668038894816566294613798802168905803273223695127954231990,
  433871477173370668357695636159347366022314937083437581293619878365549629906162141259997878019405090008902452772119922075723929690,
  475933942444236842961930014463218415035287995158227951538636304725593516335277422438736752527196311322093915000092669573127004310,
  516934413028231513572575402172146270874893104916999538713771458400793302862088656322556964465073613247280993125287445777206950080,
  556781400851723064234947814414697267306050565270026880586365597746193734275777606647913835159605860695261548593706969253686630700,
  595385991714138458327934361973917511629777683415722127391745988022754499158595270939819017352706437717998398238877837574270760400,
  632662043690963169403894629790963211930001398723857427394934688689102941771993737841171610184021696008339477152050685174428017820,
  668526379350967592604287159515839127751556866078531818433254339406182803056916128776580181703970406069388337137579937149349814110,
  702898971358874185836259249186332773833324859759647907632133656543304968265927280979786059755089355778802902133173408764919301250,
  735703121049512799579236998853608089181358039692465954278212678188852989829593722512612915352986765485488128195865412355073752830,
  766865629575319625869542961572164001907062667408906852765266574988553546542703441812868482205152259782226861449076677465375354130,
  796316961245824570532729752983942713705904689774954966173797602936514055070171113832800247437707837852423916151321081511894878880,
  823991398695587611347081960456280207616217687403235901081320334509449706695964256983528263234001807398996729700478039763051540330,
  849827189536016219462098282766272992753464253334736765289955891799931576895551546316063440554720952012051255704044372252394219650,
  873766684166944730401005225238847614070817815072478701444928162944879303942010837509703402079786905553871246669511221793605388450,
  895756464446563938460836342115967918674520563953767039887469729534154873564321046705497941344482796832677683182932295388142827370,
  915747462945207015950429232185650132675736462728937540487955661400004456014245440700349380969122959026036637836631559848834860600,
  933695072544792494372631654664544249101575540342455807882179970788524448221972251623284652430422147489174051235854784080663574020,
  949559246206235339092466777753084072563626669404721795453560890786288354595183689225152542223563071352740830164952386105896248230,
  963304586859257370964861164121587602322143158548154982996624681449208703425413860534960590454141933195959679277365152941713724570,
  974900427746285951855898159795578510090484186910214205004175435475940667884401461941932558853409486739711938825828428631191598340,
  984320904935140132890553113349730451954641606328851890656473730177582541015756130085853833753105691066147082193527330872721782700,
  991545030383375745531762687491502465237964045027890785570991604265777821538242953779552855600353962533954529795316423408864924020,
  996556821089552691122168293627165523147422609860954938006054879813792931136988270245691101411529251228051267766773968646930260800,
  999346209872177882072816984489753403848979817761245522339149118394283165545945473019253892450691513003243040878294745198584717160]

/-- `case 66` (Util/Gauss_Legendre_Nodes_and_Weights.hpp:11102-11436), `weights`. -/
def weights66 : List Nat := [
  1677653744007238599331572939576800091270171896184667183734952191945064210480451868677396373721253332474700000000000000000000000,
  3901625641744248259228460402234742565796281336445189404462597189661912758264588901184795803090206948410000000000000000000000000,
  6120192018447936365567926759932553473306441579553561248187286717304883398133227862033822363440383003240000000000000000000000000,
  8325388765990901416725545673838896969358782580478588397250058678627826641085895756635648847472733742710000000000000000000000000,
  10512065987705754657376927824909172108134705229763845830939044188287442042208478830142291997316238609260000000000000000000000000,
  12675303981261681876445189049054375238138894955081374015561949636215371156602572399311614486761849139770000000000000000000000000,
  14810265002733960173642539782605103686306555521991112496332330532509778543442919357322877291657537202930000000000000000000000000,
  16912181472245217180350295101695550292676043450388413258355114615198136564361144811770561299119974941600000000000000000000000000,
  18976361722771325934867038381913075786198349592624321376755285881728381616479565011991743967967818441338000000000000000000000000,
  20998199091864625777331044433117441606547790262510540651884322943290741023099933555054396836804906600943000000000000000000000000,
  22973181735326655918098645439192479216232657195132138737103893489050361051423569462694672008644815660698000000000000000000000000,
  24896902514757372637730931850325793809111700598266463647216418058917810168740838712252207053712470343353100000000000000000000000,
  26765068754250001908792968307297544307230286840364221122619139576230037017602367841486568497929572412189000000000000000000000000,
  28573511782931871182822297391959451143931632102801962215761437970269751608960718195501015671121753380943580000000000000000000000,
  30318196218868519193640758581746732006113798179681173435214772053411304793902763622747377793504360078955580000000000000000000000,
  31995228964046887271281720949700493590594497707320599488540370627075995056726070338719816130924525012635044000000000000000000000,
  33600867886112232670348927197039146105461594217264631085819035415759641715360137517601565717610857661267589800000000000000000000,
  35131530165472555900641096260043601372650475291363427599659866049109557321047592842045984582970638983193778570000000000000000000,
  36583800288139094413689961490612573511712540444452887223085892483195522490371062844835820356375935188207554660000000000000000000,
  37954437665941620949130099398563659529687814081169235886865580106289317324826559476666383239309771809179908497000000000000000000,
  39240383866828330187812859489769044693949424966588824285501813444578686532232875577778589606591397203918279890200000000000000000,
  40438769438954979125868375932946746599378139867327735604981811496172807554106005927207311229431107495220320586070000000000000000,
  41546920313241881317734536687420990855826393334919969829441451315009542881645345965576368274026645679924385227134000000000000000,
  42562363770055716318906738770132160374080447432554420723955938534212761748065318515980647511720751879053918973193600000000000000,
  43482833956667478647575390017138931734615197936373597617462113264002478978291715273935636948601779964718544847027737000000000000,
  44306276943153161904603355108878719334025885453874777620933514223089299529014021683964050952875396380203680657392562900000000000,
  45030855305441500215192806837288790236157251206414493265596819499743342161558097109239422384821087266065389902275391250000000000,
  45654952225273056120438842210584480337755611630856869259533265322030570934070127294156802705288894490857690156568200681000000000,
  46177175097915975471666471573046242048539184524509789525682827524639316085233356535308224290632543010786988002982392205730000000,
  46596358639584103625824137822294161475154741569596167982806577808655961312726314138979054871275302875719112724316861227760000000,
  46911567487620827746254040952238442598878234690223893446477982652579727310335360225726185746740610540111303446630321427452870000,
  47122098287644732185445169644654235070553744537607890698188008590840416728682984094384736552381306371160900012283183938764347000,
  47227481262998554845633327738247868230624729786313215834088527920366251740918018449086408606155574348958359703598808774047001040,
  47227481262998554845633327738247868230624729786313215834088527920366251740918018449086408606155574348958359703598808774047001040,
  47122098287644732185445169644654235070553744537607890698188008590840416728682984094384736552381306371160900012283183938764347000,
  46911567487620827746254040952238442598878234690223893446477982652579727310335360225726185746740610540111303446630321427452870000,
  46596358639584103625824137822294161475154741569596167982806577808655961312726314138979054871275302875719112724316861227760000000,
  46177175097915975471666471573046242048539184524509789525682827524639316085233356535308224290632543010786988002982392205730000000,
  45654952225273056120438842210584480337755611630856869259533265322030570934070127294156802705288894490857690156568200681000000000,
  45030855305441500215192806837288790236157251206414493265596819499743342161558097109239422384821087266065389902275391250000000000,
  44306276943153161904603355108878719334025885453874777620933514223089299529014021683964050952875396380203680657392562900000000000,
  43482833956667478647575390017138931734615197936373597617462113264002478978291715273935636948601779964718544847027737000000000000,
  42562363770055716318906738770132160374080447432554420723955938534212761748065318515980647511720751879053918973193600000000000000,
  41546920313241881317734536687420990855826393334919969829441451315009542881645345965576368274026645679924385227134000000000000000,
  40438769438954979125868375932946746599378139867327735604981811496172807554106005927207311229431107495220320586070000000000000000,
  39240383866828330187812859489769044693949424966588824285501813444578686532232875577778589606591397203918279890200000000000000000,
  37954437665941620949130099398563659529687814081169235886865580106289317324826559476666383239309771809179908497000000000000000000,
  36583800288139094413689961490612573511712540444452887223085892483195522490371062844835820356375935188207554660000000000000000000,
  35131530165472555900641096260043601372650475291363427599659866049109557321047592842045984582970638983193778570000000000000000000,
  33600867886112232670348927197039146105461594217264631085819035415759641715360137517601565717610857661267589800000000000000000000,
  31995228964046887271281720949700493590594497707320599488540370627075995056726070338719816130924525012635044000000000000000000000,
  30318196218868519193640758581746732006113798179681173435214772053411304793902763622747377793504360078955580000000000000000000000,
  28573511782931871182822297391959451143931632102801962215761437970269751608960718195501015671121753380943580000000000000000000000,
  26765068754250001908792968307297544307230286840364221122619139576230037017602367841486568497929572412189000000000000000000000000,
  24896902514757372637730931850325793809111700598266463647216418058917810168740838712252207053712470343353100000000000000000000000,
  22973181735326655918098645439192479216232657195132138737103893489050361051423569462694672008644815660698000000000000000000000000,
  20998199091864625777331044433117441606547790262510540651884322943290741023099933555054396836804906600943000000000000000000000000,
  18976361722771325934867038381913075786198349592624321376755285881728381616479565011991743967967818441338000000000000000000000000,
  16912181472245217180350295101695550292676043450388413258355114615198136564361144811770561299119974941600000000000000000000000000,
  14810265002733960173642539782605103686306555521991112496332330532509778543442919357322877291657537202930000000000000000000000000,
  12675303981261681876445189049054375238138894955081374015561949636215371156602572399311614486761849139770000000000000000000000000,
  10512065987705754657376927824909172108134705229763845830939044188287442042208478830142291997316238609260000000000000000000000000,
  8325388765990901416725545673838896969358782580478588397250058678627826641085895756635648847472733742710000000000000000000000000,
  6120192018447936365567926759932553473306441579553561248187286717304883398133227862033822363440383003240000000000000000000000000,
  3901625641744248259228460402234742565796281336445189404462597189661912758264588901184795803090206948410000000000000000000000000,
  1677653744007238599331572939576800091270171896184667183734952191945064210480451868677396373721253332474700000000000000000000000]

/-- `case 67` (Util/Gauss_Legendre_Nodes_and_Weights.hpp:11438-11776), `nodes`. -/
def nodes67 : List Int := [
  -999365435552976797970416317460717848694349626493986233410788099826177727824848958199149557225147504517630385309819664160814111350,
  -996658027206113735364370743603968226293097980442610234480599874544536258059405443457912675769380960109244250232346229342963880940,
  -991793347082309609461697774458626320997086458343226060934680934201301337999614981071824527471315983364749109076337227080965903200,
  -984780847755951113442592799844473165234707650740274730922229287570799857850002696137653102955828435919411587286241917064678529680,
  -975635583922908052394254411772012610324762811659268775834907402558696391611611337794741566386144303651129473765834107923484104060,
  -964377330427712611695647149930716287584270349429176605700294204176195780623553425080230560279216221840685777251251705143893744730,
  -951030459540145373212348138980838361813526397119158561121865127431861616323797556565255084667383116935649449624722325308277265540,
  -935623873270750876866652904788867800046380778310934618666765753973047463245002055991519423100644162511186276140197022244984699700,
  -918190936812738581247247289003136257575177182742701494590659196633877111238301899377992675480147840886257631288298513198119606580,
  -898769404961320375818489006838239551090042483188489054094211742184311217762349004932125882715805957651653954937484827303682433480,
  -877401339831658720400298181370340580984644264039429341845775513368673260806212482552594054409728041261520084193928534862429169370,
  -854133019537050650790743401660010198910256101077912022574296795014277295183441846923925598177524726778037613828385676034382837090,
  -829014837853301197689073948318830135708164336108999383454560328559426909186051471580567445840514864450223997726211886833504071790,
  -802101195021694434417253564592809976327144393821718644567085152630048021328218080057242552019061050147864984043394163459423947110,
  -773450379899980327541548909768341029833854577366322344933622886502099257111225640131688229578273911130474948737024800892929025830,
  -743124443704366206695961478027469772744609703337119540542550386559251732554444504706093450447765063773860398490385976464098045040,
  -711189065610040327854835944267750869621852155596552142513009529528037363414842427500724924469630419627877329890657015445088574980,
  -677713410498280828780525157184414331101247568286093492140112402621057339257011335312729251030067665808935351184599214518310906160,
  -642769979156615354278134186926244463447314264463674575484519597525986355037381536556967896843884080872773794023669830177243339290,
  -606434451255557386200297831173744134377046987015846727576009082578168151826325265644947077946273930226004709773272676768703345860,
  -568785521441471021257571687169966898010906565555769318353759711392585690759611254533915082618431099781396446615600003730137331670,
  -529904728900236016169800775697716945252874986506134378665517567498566009269169086814461705801818471649486682006355031948841426300,
  -489876280760646626095592971940239459826648149390461729826736034633859689744375887667634205139028851900723496227694712035757112150,
  -448786869719890883995132763371118135631320133363305068278966625635212020293914663178870986386787002993680256504215273526410287680,
  -406725486286013915985299316235310447660328674245595849400296543701766841834550112579698069158746272012458841085915409780971744800,
  -363783226043954170826044467174613446834373597953426577664348063667322541791176016139492265614487332380770171743797528036381836860,
  -320053092362536331066875187822148392498150487314688888971336456118590234983926656611016304304285068268712592214190540312008451570,
  -275629794969689587715555270951732551447858837975872356631138764542711588272843528423466595748954467877698152186131773509098439830,
  -230609544832115737925229867419608211238718268849618702247574805625949057570152081007237532441017150859968107133984582229762070820,
  -185089845783640168816231447423263705618567808453046557049072071126804989130415285760514837745129436452985710870968475565683172780,
  -139169283353523713563890694408504010866954664173752348268215619254628527377946594826646989717950760504533147902750053358012492370,
  -92947311252079876631720655951176739684446137131387140647971325666178371073768227742184079617085157336443503210526696573358730612,
  -46524035976017219564639128463811549958929694416708253063345438540451955265266221873397672858178934994775521277528323605774924069,
  0,
  46524035976017219564639128463811549958929694416708253063345438540451955265266221873397672858178934994775521277528323605774924069,
  92947311252079876631720655951176739684446137131387140647971325666178371073768227742184079617085157336443503210526696573358730612,
  139169283353523713563890694408504010866954664173752348268215619254628527377946594826646989717950760504533147902750053358012492370,
  185089845783640168816231447423263705618567808453046557049072071126804989130415285760514837745129436452985710870968475565683172780,
  230609544832115737925229867419608211238718268849618702247574805625949057570152081007237532441017150859968107133984582229762070820,
  275629794969689587715555270951732551447858837975872356631138764542711588272843528423466595748954467877698152186131773509098439830,
  320053092362536331066875187822148392498150487314688888971336456118590234983926656611016304304285068268712592214190540312008451570,
  363783226043954170826044467174613446834373597953426577664348063667322541791176016139492265614487332380770171743797528036381836860,
  406725486286013915985299316235310447660328674245595849400296543701766841834550112579698069158746272012458841085915409780971744800,
  448786869719890883995132763371118135631320133363305068278966625635212020293914663178870986386787002993680256504215273526410287680,
  489876280760646626095592971940239459826648149390461729826736034633859689744375887667634205139028851900723496227694712035757112150,
  529904728900236016169800775697716945252874986506134378665517567498566009269169086814461705801818471649486682006355031948841426300,
  568785521441471021257571687169966898010906565555769318353759711392585690759611254533915082618431099781396446615600003730137331670,
  606434451255557386200297831173744134377046987015846727576009082578168151826325265644947077946273930226004709773272676768703345860,
  642769979156615354278134186926244463447314264463674575484519597525986355037381536556967896843884080872773794023669830177243339290,
  677713410498280828780525157184414331101247568286093492140112402621057339257011335312729251030067665808935351184599214518310906160,
  711189065610040327854835944267750869621852155596552142513009529528037363414842427500724924469630419627877329890657015445088574980,
  743124443704366206695961478027469772744609703337119540542550386559251732554444504706093450447765063773860398490385976464098045040,
  773450379899980327541548909768341029833854577366322344933622886502099257111225640131688229578273911130474948737024800892929025830,
  802101195021694434417253564592809976327144393821718644567085152630048021328218080057242552019061050147864984043394163459423947110,
  829014837853301197689073948318830135708164336108999383454560328559426909186051471580567445840514864450223997726211886833504071790,
  854133019537050650790743401660010198910256101077912022574296795014277295183441846923925598177524726778037613828385676034382837090,
  877401339831658720400298181370340580984644264039429341845775513368673260806212482552594054409728041261520084193928534862429169370,
  898769404961320375818489006838239551090042483188489054094211742184311217762349004932125882715805957651653954937484827303682433480,
  918190936812738581247247289003136257575177182742701494590659196633877111238301899377992675480147840886257631288298513198119606580,
  935623873270750876866652904788867800046380778310934618666765753973047463245002055991519423100644162511186276140197022244984699700,
  951030459540145373212348138980838361813526397119158561121865127431861616323797556565255084667383116935649449624722325308277265540,
  964377330427712611695647149930716287584270349429176605700294204176195780623553425080230560279216221840685777251251705143893744730,
  975635583922908052394254411772012610324762811659268775834907402558696391611611337794741566386144303651129473765834107923484104060,
  984780847755951113442592799844473165234707650740274730922229287570799857850002696137653102955828435919411587286241917064678529680,
  991793347082309609461697774458626320997086458343226060934680934201301337999614981071824527471315983364749109076337227080965903200,
  996658027206113735364370743603968226293097980442610234480599874544536258059405443457912675769380960109244250232346229342963880940,
  999365435552976797970416317460717848694349626493986233410788099826177727824848958199149557225147504517630385309819664160814111350]

/-- `case 67` (Util/Gauss_Legendre_Nodes_and_Weights.hpp:11438-11776), `weights`. -/
def weights67 : List Nat := [
  1628325035240012866462946221899840163533390611440659249162281871143241840609615381645013073727600312302000000000000000000000000,
  3787008301825508445963916890491782877295249551485438199525703368341777449944783260727121437747829738940000000000000000000000000,
  5940693177582235216513362498480120990928978215762939642408009342641678033927042545087583916250323719640000000000000000000000000,
  8081790299023136215346284692480467673737439617920311300880054792250684666722629940944274466818371750740000000000000000000000000,
  10205440034102440986661869004680183427786904783084407870433756214916972398684262422156926708740883926350000000000000000000000000,
  12307003849288150521954147550954269952478972727799339290852475015243714015007681840951765014847062428950000000000000000000000000,
  14381919827200550930977384423262112398755458876833518689653771270914597049011540658679602321206822597280000000000000000000000000,
  16425690622530879204726810276430692518537922544212645911298728995985419715970714590356418015801439701170000000000000000000000000,
  18433888456804573872165999030525947094937390224523180545071408390447955234848066861938389816929646800040000000000000000000000000,
  20402163371343540449257282620727938257836309751003780941847280353354529585622166914648222588679834527369000000000000000000000000,
  22326252196452076922797311151358662096396554051435404755060628591149905756084554771103252330077880631636000000000000000000000000,
  24201987609673164720691823039187928977196398886349919581240379664680106224845857284676514629587730801117000000000000000000000000,
  26025307086213238803705042286112026844574000246779120200781642562098424008707088658985297935221315430610300000000000000000000000,
  27792261662436769987199830535129762667902961157319128102343040321002760641473813835915280375075412005221600000000000000000000000,
  29499024470945669695847264375879884040615360780516840712808570783835314074010636034350790608789211055719030000000000000000000000,
  31141899019472823937426008344696545403592992569597412078821621654260641770648733709334006242427692445878384000000000000000000000,
  32717327191531205427122307952590529091641012040559183070331251168427861173649793102541668864658833212739391000000000000000000000,
  34221896949536646739838764261656603080519281214091262795032175770314419407917181921177725075508063581709732800000000000000000000,
  35652349722745006661332622787236889381420713161271580193618341407113482137693742126721054020322885401326820720000000000000000000,
  37005587463492582023135027178555341855599558187448557031871312065211135891081861760400521792058117301789580003000000000000000000,
  38278679356179480647637058336231301716191729574638848602877989295058020712435323989596292682888509894748660576500000000000000000,
  39468868164308882642886829090049552736351824599900387913017172296212397900833779241577155762263572588840484576760000000000000000,
  40573576201744525227251556938605813189947535972490590013937770302015833908604547681271337052505707885349875890343000000000000000,
  41590410915199243098548264159430077514559853290349953485314815158511182371312840675740251441517480091804320549936200000000000000,
  42517170065830491471547755409560907841535864929464478311556970070779827925666761844024574751645643852418660900274260000000000000,
  43351846498699517359155763722428519659336901187741534513676559556109764946521138065270840255804338538284823782596435000000000000,
  44092632489751018307831580882255487487926018539257682212473656464194405791537643898015686543348837732099632727358283700000000000,
  44737923660889825472141767259450268527397802068879349450226398205490077105276161119951971827347520778070936843101693450000000000,
  45286322454669531568050000876166292471883480074767545118815087149041136986190713250829243569189076746613654913501167167900000000,
  45736641161063690936894178569389394813051087808374006795075739409669196496960973544037695309081323346221693856447145380620000000,
  46087904489761576197217389288347574916155676690483485746136428899461715199878226403084015416578007316635832360399006838818000000,
  46339351682415621108447048640864622841874597636382835711878630223167342948284629320674304246669285985429880516004736272780650000,
  46490438160264628208314657053127880544969003674909477738582388482842064911713744631974623360799551206330276103347377825772309600,
  46540836703563508249900289303509553887063549505850388446775921768224823436643497423221157091768373333254190501561786629300556174,
  46490438160264628208314657053127880544969003674909477738582388482842064911713744631974623360799551206330276103347377825772309600,
  46339351682415621108447048640864622841874597636382835711878630223167342948284629320674304246669285985429880516004736272780650000,
  46087904489761576197217389288347574916155676690483485746136428899461715199878226403084015416578007316635832360399006838818000000,
  45736641161063690936894178569389394813051087808374006795075739409669196496960973544037695309081323346221693856447145380620000000,
  45286322454669531568050000876166292471883480074767545118815087149041136986190713250829243569189076746613654913501167167900000000,
  44737923660889825472141767259450268527397802068879349450226398205490077105276161119951971827347520778070936843101693450000000000,
  44092632489751018307831580882255487487926018539257682212473656464194405791537643898015686543348837732099632727358283700000000000,
  43351846498699517359155763722428519659336901187741534513676559556109764946521138065270840255804338538284823782596435000000000000,
  42517170065830491471547755409560907841535864929464478311556970070779827925666761844024574751645643852418660900274260000000000000,
  41590410915199243098548264159430077514559853290349953485314815158511182371312840675740251441517480091804320549936200000000000000,
  40573576201744525227251556938605813189947535972490590013937770302015833908604547681271337052505707885349875890343000000000000000,
  39468868164308882642886829090049552736351824599900387913017172296212397900833779241577155762263572588840484576760000000000000000,
  38278679356179480647637058336231301716191729574638848602877989295058020712435323989596292682888509894748660576500000000000000000,
  37005587463492582023135027178555341855599558187448557031871312065211135891081861760400521792058117301789580003000000000000000000,
  35652349722745006661332622787236889381420713161271580193618341407113482137693742126721054020322885401326820720000000000000000000,
  34221896949536646739838764261656603080519281214091262795032175770314419407917181921177725075508063581709732800000000000000000000,
  32717327191531205427122307952590529091641012040559183070331251168427861173649793102541668864658833212739391000000000000000000000,
  31141899019472823937426008344696545403592992569597412078821621654260641770648733709334006242427692445878384000000000000000000000,
  29499024470945669695847264375879884040615360780516840712808570783835314074010636034350790608789211055719030000000000000000000000,
  27792261662436769987199830535129762667902961157319128102343040321002760641473813835915280375075412005221600000000000000000000000,
  26025307086213238803705042286112026844574000246779120200781642562098424008707088658985297935221315430610300000000000000000000000,
  24201987609673164720691823039187928977196398886349919581240379664680106224845857284676514629587730801117000000000000000000000000,
  22326252196452076922797311151358662096396554051435404755060628591149905756084554771103252330077880631636000000000000000000000000,
  20402163371343540449257282620727938257836309751003780941847280353354529585622166914648222588679834527369000000000000000000000000,
  18433888456804573872165999030525947094937390224523180545071408390447955234848066861938389816929646800040000000000000000000000000,
  16425690622530879204726810276430692518537922544212645911298728995985419715970714590356418015801439701170000000000000000000000000,
  14381919827200550930977384423262112398755458876833518689653771270914597049011540658679602321206822597280000000000000000000000000,
  12307003849288150521954147550954269952478972727799339290852475015243714015007681840951765014847062428950000000000000000000000000,
  10205440034102440986661869004680183427786904783084407870433756214916972398684262422156926708740883926350000000000000000000000000,
  8081790299023136215346284692480467673737439617920311300880054792250684666722629940944274466818371750740000000000000000000000000,
  5940693177582235216513362498480120990928978215762939642408009342641678033927042545087583916250323719640000000000000000000000000,
  3787008301825508445963916890491782877295249551485438199525703368341777449944783260727121437747829738940000000000000000000000000,
  1628325035240012866462946221899840163533390611440659249162281871143241840609615381645013073727600312302000000000000000000000000]

/-- `case 68` (Util/Gauss_Legendre_Nodes_and_Weights.hpp:11778-12122), `nodes`. -/
def nodes68 : List Int := [
  -999383825529704347163934050459670004573390570918937392703460101608947970279244235109601887184242645635766051822124468939848139120,
  -996754836676664292536173472131322173398214925474505684986682053950123030959176969238588946106112802668372380072554961960415930180,
  -992030887742448574647845302787386939979117674308160663020879442574557856239438821999373845985377204569535588336582619543797460150,
  -985220861440244638894495352930746837276199872188422330605385685112398140274753543818622666851354370002383939576421617266090272170,
  -976338950400356956942611559567048374141571609006640440518801195056564506334032370821196580378538736185963299838314779983084284200,
  -965403802582199803231954986555139768749338139041329593029886616279470588372832379512981556022411196012648125567171233385821547700,
  -952438404479602049323358824370307356907307358544799555485487198128445646749097135080149789557113442125515708472663579044514100940,
  -937470018312800886485620552442406837044698830404110263565859982340722912808879611461175451813470177480417868757866637183600221600,
  -920530120847918166460552363202734847091313522627248480889398251379704263735317400369909198946504591683222530223403077053341387780,
  -901654335920107830215709254536957763452163456438746114762093617138104341299710639401093605404081022183860165690061367191823155540,
  -880882359017455917697264130577484177299018884813461340149968335905679224778306715465651113294420552037580939014704201235110491100,
  -858257873582659845494962291728560387441655918630320186433547460655694755171806100925061431100920385984018366448750942551683268230,
  -833828459041670945820711027938652687597040492741830112058843460516558736758712740414263761468414057392752176058720006393276507730,
  -807645490689708665233626258729612335715434223873228823236101312494100807387781500787477464533139095479132314059862105868987243840,
  -779764031618897658744951296887000070456911839130807288035962390468256604945967811695090462420262676026098965382716959761925815530,
  -750242716902916519767578229818773054596859967966174985618635292714796786563885048399342939385934203416967409705093791609713405910,
  -719143630276472992623073444021475353217257492092198456266304907021554337867582446118371454230201601436613312737687149893879116190,
  -686532173566012944784356122405306532499570117020663594790394049708061901799865016886159422086610905843768529731156919762134802320,
  -652476929144676964200554684210327330505422607049256751315006583383910115928115927291553836037823963798966169541747710000732877640,
  -617049515699883422716947129412793540504376828792994465856292306406195329844852070538030412294497201993427365917811811715731107020,
  -580324437616350740175135238780440880853469263656738408917669204004536407522955192889657521093081638235548760258141442031474066700,
  -542378928291003385814490574555459868339556745175507647645141527710797203829984645658220898880741265395617596125680151930684627450,
  -503292787709084872635135283030467432213242346613408826684627466963393131481692897105792537682356175097398632392102363587648972080,
  -463148214622939039172771900030251680825054909296385413236159186403829465794519978922159865226909514016905469479967573746701367030,
  -422029633686313579146938791935479882863669800851361340937020434004346986041854026313842452850062921152624295105460526981298055270,
  -380023517907674477497964175754159008930973707625059842004258685034631895013691092323985770727475195096297749962073101043409559420,
  -337218206795880762727485239668058303296590043098405175909153287137901157757181928861922491824639969785075552037033576094155503920,
  -293703720580638739978423118807904637809838662431778100471023621346874467228811614848182711708938356235006250509243499846422715150,
  -249571570898416734511574761093973629018167577623949001157827666744710356122911710817863064974689490405546475652332691775514102240,
  -204914568341939295842529781196305136585313589819111200330676333216193584020152549792609631343115851596323030089300760983309903980,
  -159826627277978960995220462891633399966486090826812690558919774388218757248450043670795216282451979838024371695140693990223452510,
  -114402568343910684430577720166839865947858252918591585347593881740130705322651300924867340693968783285371694141471273346257634890,
  -68737919038377152211390052932908047780000661987661141792603805716666666728762044176237531192913368076283056444695919846537883162,
  -22928712825422349713996243254144027629366679936352517759043568356022365662602216411048690011659365604414235087899249100633237822,
  22928712825422349713996243254144027629366679936352517759043568356022365662602216411048690011659365604414235087899249100633237822,
  68737919038377152211390052932908047780000661987661141792603805716666666728762044176237531192913368076283056444695919846537883162,
  114402568343910684430577720166839865947858252918591585347593881740130705322651300924867340693968783285371694141471273346257634890,
  159826627277978960995220462891633399966486090826812690558919774388218757248450043670795216282451979838024371695140693990223452510,
  204914568341939295842529781196305136585313589819111200330676333216193584020152549792609631343115851596323030089300760983309903980,
  249571570898416734511574761093973629018167577623949001157827666744710356122911710817863064974689490405546475652332691775514102240,
  293703720580638739978423118807904637809838662431778100471023621346874467228811614848182711708938356235006250509243499846422715150,
  337218206795880762727485239668058303296590043098405175909153287137901157757181928861922491824639969785075552037033576094155503920,
  380023517907674477497964175754159008930973707625059842004258685034631895013691092323985770727475195096297749962073101043409559420,
  422029633686313579146938791935479882863669800851361340937020434004346986041854026313842452850062921152624295105460526981298055270,
  463148214622939039172771900030251680825054909296385413236159186403829465794519978922159865226909514016905469479967573746701367030,
  503292787709084872635135283030467432213242346613408826684627466963393131481692897105792537682356175097398632392102363587648972080,
  542378928291003385814490574555459868339556745175507647645141527710797203829984645658220898880741265395617596125680151930684627450,
  580324437616350740175135238780440880853469263656738408917669204004536407522955192889657521093081638235548760258141442031474066700,
  617049515699883422716947129412793540504376828792994465856292306406195329844852070538030412294497201993427365917811811715731107020,
  652476929144676964200554684210327330505422607049256751315006583383910115928115927291553836037823963798966169541747710000732877640,
  686532173566012944784356122405306532499570117020663594790394049708061901799865016886159422086610905843768529731156919762134802320,
  719143630276472992623073444021475353217257492092198456266304907021554337867582446118371454230201601436613312737687149893879116190,
  750242716902916519767578229818773054596859967966174985618635292714796786563885048399342939385934203416967409705093791609713405910,
  779764031618897658744951296887000070456911839130807288035962390468256604945967811695090462420262676026098965382716959761925815530,
  807645490689708665233626258729612335715434223873228823236101312494100807387781500787477464533139095479132314059862105868987243840,
  833828459041670945820711027938652687597040492741830112058843460516558736758712740414263761468414057392752176058720006393276507730,
  858257873582659845494962291728560387441655918630320186433547460655694755171806100925061431100920385984018366448750942551683268230,
  880882359017455917697264130577484177299018884813461340149968335905679224778306715465651113294420552037580939014704201235110491100,
  901654335920107830215709254536957763452163456438746114762093617138104341299710639401093605404081022183860165690061367191823155540,
  920530120847918166460552363202734847091313522627248480889398251379704263735317400369909198946504591683222530223403077053341387780,
  937470018312800886485620552442406837044698830404110263565859982340722912808879611461175451813470177480417868757866637183600221600,
  952438404479602049323358824370307356907307358544799555485487198128445646749097135080149789557113442125515708472663579044514100940,
  965403802582199803231954986555139768749338139041329593029886616279470588372832379512981556022411196012648125567171233385821547700,
  976338950400356956942611559567048374141571609006640440518801195056564506334032370821196580378538736185963299838314779983084284200,
  985220861440244638894495352930746837276199872188422330605385685112398140274753543818622666851354370002383939576421617266090272170,
  992030887742448574647845302787386939979117674308160663020879442574557856239438821999373845985377204569535588336582619543797460150,
  996754836676664292536173472131322173398214925474505684986682053950123030959176969238588946106112802668372380072554961960415930180,
  999383825529704347163934050459670004573390570918937392703460101608947970279244235109601887184242645635766051822124468939848139120]

/-- `case 68` (Util/Gauss_Legendre_Nodes_and_Weights.hpp:11778-12122), `weights`. -/
def weights68 : List Nat := [
  1581140256372912939095058791100885220064527032057033079186395739273253673924838256199248438500929507061000000000000000000000000,
  3677366595011730633568082019544724098046065845584218391244648788697677410560810029323754620445558799020000000000000000000000000,
  5768969918729952021468471544828180923745610991596509634093680211039045997626028853041717451736589460180000000000000000000000000,
  7848711393177167415050460846178971975930931723911292070130207994664205545516492305032021216566785953100000000000000000000000000,
  9912001251585937209130378398108141729922621385781438974245457409505346479714975105455010229726930577700000000000000000000000000,
  11954462319769442103223057306947604825340667302599945605289978528421169766403750163911616152665032240400000000000000000000000000,
  13971789174457655815965025749567069049232744579928590506792751096376919153665052852013294304325954455100000000000000000000000000,
  15959735909613800072133404320781655044166570078076208187415748583591551341414205479714746112293306842750000000000000000000000000,
  17914120457923152489405464741815144401161264527662476781151472815767710632420320926653811586909841749800000000000000000000000000,
  19830832087955498291028670582982311019201395787507836788058983478953463669829778139913834000177620113760000000000000000000000000,
  21705839610378079801465680815462412858731391473250182542759104150037408437505436745198669463641829718011000000000000000000000000,
  23535199685876333361292982107998014585506605493509912188701657924829829025184964721817456376983171642014000000000000000000000000,
  25315065045176398323902710625993350133694877602534484504315238730509140656881854624868892936066259093933000000000000000000000000,
  27041692545903961557978118289406614371632273244233777648916981526300195467729925082014668728877949591910200000000000000000000000,
  28711451027484990710803920091268064077316809094989269969023850813293671678017949407898979268332715366204990000000000000000000000,
  30320828938553980341579283645164896983140584196633181072232665339123508635579500962329821350433394640064790000000000000000000000,
  31866441716821064939347643420659693200665470326612211218553288886705287774692363863581784410151591095170901000000000000000000000,
  33345038903980687903143127885771610244077852454507588326667420665434825154570514295156361070343809860994862400000000000000000000,
  34753510979751513166793117670635907653513605328671236485988845216243934365517816323016239322219340873100894700000000000000000000,
  36088895900179870714975824959025037288265114097103129768587296664499495343862236340406927413205246206392446140000000000000000000,
  37348385326186667716079122893610889064194799403121407606371665101336927346090417616997453232742975033750819480000000000000000000,
  38529330529106714493253632974725454084929363609345839423370180772333617279426885967693191282938298713599373489300000000000000000,
  39629247960712308025406454289523634116745084613381157142327757157819725819019111291696126584588611137430607508170000000000000000,
  40645824475954076140881727112546223969553350309218765341182764992766307287263721135176728632199155314891295076771000000000000000,
  41576922197402916484575482519379672006968341174507117047537347558773813666056232735069744101956734782916636368465700000000000000,
  42420583011142499300614231108385481604215979272502123502280441349356650054026388360359406502309214274586491414882183000000000000,
  43175032684644223225843530539823738072548603127732150911168132457891939925428964387497582230236157577915215715003713000000000000,
  43838684597956052010604958282483590183282625864681754508139944906097407237394731301070935078232752530286024779877678910000000000,
  44410143080352755909348699358364422444522837417195855307797308989509227943496743716396820737973702307393729686873899089000000000,
  44888206345426667826352131187278030516283219591451564808129413871295187108806701061331254125416173117997994359153229144950000000,
  45271869018443777869411698996001246594599580761910879961191841489878396105816860588666658654874329658623053169625439467667000000,
  45560324250648285980707712551445364573746017520907520397659020725239627969259754636228469950409463998459659270570095447010270000,
  45752965416067950519006145347604590382482568248391965442891874403881514792747539427307652253078886680516470770674059592598112000,
  45849387387250974686563989025587372702570646518901374856596631660552017254547133296959122179439687084884818718913471597538637360,
  45849387387250974686563989025587372702570646518901374856596631660552017254547133296959122179439687084884818718913471597538637360,
  45752965416067950519006145347604590382482568248391965442891874403881514792747539427307652253078886680516470770674059592598112000,
  45560324250648285980707712551445364573746017520907520397659020725239627969259754636228469950409463998459659270570095447010270000,
  45271869018443777869411698996001246594599580761910879961191841489878396105816860588666658654874329658623053169625439467667000000,
  44888206345426667826352131187278030516283219591451564808129413871295187108806701061331254125416173117997994359153229144950000000,
  44410143080352755909348699358364422444522837417195855307797308989509227943496743716396820737973702307393729686873899089000000000,
  43838684597956052010604958282483590183282625864681754508139944906097407237394731301070935078232752530286024779877678910000000000,
  43175032684644223225843530539823738072548603127732150911168132457891939925428964387497582230236157577915215715003713000000000000,
  42420583011142499300614231108385481604215979272502123502280441349356650054026388360359406502309214274586491414882183000000000000,
  41576922197402916484575482519379672006968341174507117047537347558773813666056232735069744101956734782916636368465700000000000000,
  40645824475954076140881727112546223969553350309218765341182764992766307287263721135176728632199155314891295076771000000000000000,
  39629247960712308025406454289523634116745084613381157142327757157819725819019111291696126584588611137430607508170000000000000000,
  38529330529106714493253632974725454084929363609345839423370180772333617279426885967693191282938298713599373489300000000000000000,
  37348385326186667716079122893610889064194799403121407606371665101336927346090417616997453232742975033750819480000000000000000000,
  36088895900179870714975824959025037288265114097103129768587296664499495343862236340406927413205246206392446140000000000000000000,
  34753510979751513166793117670635907653513605328671236485988845216243934365517816323016239322219340873100894700000000000000000000,
  33345038903980687903143127885771610244077852454507588326667420665434825154570514295156361070343809860994862400000000000000000000,
  31866441716821064939347643420659693200665470326612211218553288886705287774692363863581784410151591095170901000000000000000000000,
  30320828938553980341579283645164896983140584196633181072232665339123508635579500962329821350433394640064790000000000000000000000,
  28711451027484990710803920091268064077316809094989269969023850813293671678017949407898979268332715366204990000000000000000000000,
  27041692545903961557978118289406614371632273244233777648916981526300195467729925082014668728877949591910200000000000000000000000,
  25315065045176398323902710625993350133694877602534484504315238730509140656881854624868892936066259093933000000000000000000000000,
  23535199685876333361292982107998014585506605493509912188701657924829829025184964721817456376983171642014000000000000000000000000,
  21705839610378079801465680815462412858731391473250182542759104150037408437505436745198669463641829718011000000000000000000000000,
  19830832087955498291028670582982311019201395787507836788058983478953463669829778139913834000177620113760000000000000000000000000,
  17914120457923152489405464741815144401161264527662476781151472815767710632420320926653811586909841749800000000000000000000000000,
  15959735909613800072133404320781655044166570078076208187415748583591551341414205479714746112293306842750000000000000000000000000,
  13971789174457655815965025749567069049232744579928590506792751096376919153665052852013294304325954455100000000000000000000000000,
  11954462319769442103223057306947604825340667302599945605289978528421169766403750163911616152665032240400000000000000000000000000,
  9912001251585937209130378398108141729922621385781438974245457409505346479714975105455010229726930577700000000000000000000000000,
  7848711393177167415050460846178971975930931723911292070130207994664205545516492305032021216566785953100000000000000000000000000,
  5768969918729952021468471544828180923745610991596509634093680211039045997626028853041717451736589460180000000000000000000000000,
  3677366595011730633568082019544724098046065845584218391244648788697677410560810029323754620445558799020000000000000000000000000,
  1581140256372912939095058791100885220064527032057033079186395739273253673924838256199248438500929507061000000000000000000000000]

/-- `case 69` (Util/Gauss_Legendre_Nodes_and_Weights.hpp:12124-12472), `nodes`. -/
def nodes69 : List Int := [
  -999401427543244788208060967646121418501571749161728442221289304338857283883325989946572592029839047735679540882341903911572807620,
  -996847500485195100459497014953645209357845167340067408497238133787044195135763592637728344590472349848157877886599215767548829680,
  -992258266716853118700433913219466785756114568711453182994442523687147066433069241610380281859321364205872872576784230271793002210,
  -985642080022637593237139352621122545919741596491455173609717419208151426065985920338604290819397277273921730385674671655729164860,
  -977012331622094263389466091021529505984530174637742792321795078099124067889326877965503785917423131438871191527463581395430117920,
  -966386621642860566855799811670797215491623114185112404616351210660596631235617348589140486814199233183257692779287581217045169730,
  -953786647805181897533939837631103131436864310294051909975297072129148056983608123291066498663760480967141502271542354940758112940,
  -939238147041608472966835800156577238157035986768503204257065088046318233531714639987428005809139942110200577601510759392047055100,
  -922770839180444997188817784539705526962242686306349977617084505507703422677535521888471673104690025108402213088885597207371653810,
  -904418364985827140066524833236586299114434322805359800363575393794776602903043226041425178774440900553025197047013598812072059040,
  -884218216947252436662818857563874950920790269303617986369531279788558185921406035922944851657423092938783012121338135914826662740,
  -862211662472744083857172022828939726551682034096877176886466077563130781400067583642655235322603829736693610710288664065856527390,
  -838443659480504213261616472985085945938309810474838292790593650628762692955754058395927660792183866700603745719871157221163498200,
  -812962764500295613856480080975953547060930039832262219660091653668074358124875453150000481021856699602333044274717986254666423000,
  -785821033446759760335369049080552068152902401373973682293303184430257203249464108959974722143135656334922120508668425305039961340,
  -757073915255837851594723194432757345040595811560041361457842766191300291371934161915105111003571677323602970999109118933850554320,
  -726780138596008088657160129952025250195829144929850753446865095983803044206487181734314067143337416289964395027399990380314490610,
  -695001591882928460929743852286597981900731111333652840341694972180552251661795830558526680609413309818008395095918921350433777650,
  -661803196841078244024226231614807985779437914822913330348237350061019876521710088271426062108151009538675243084130377594192708390,
  -627252775869849401767457558667283824227201598428127082036819682573237910303137497034429790738065326591500616647480787374112396960,
  -591420913484555825569309504422024967467834297545004188100883670976630159728817205806850490099510232641473453257400045782548626740,
  -554380812115132014537972991218126579208803180098405524823466875848376584820162199814103693496563666810568581794731806483464055440,
  -516208142556933709171820720450272673190290622857118177895761129226104945894780223929790119798741258797754924524614554036792486950,
  -476980889379045710341440876655055089165849446756501418789842848579168273868482803932089420296276920931503742249720531166366779300,
  -436779191605844420869876893385921824711636148983037637962985639514956339668119220726316338207554019017786384540621799966425238010,
  -395685178997244447351756104594377325152207198132734431313265926032059208207643954521137767823891107899002575930376214441193131440,
  -353782804262066317960127093452869700777407605875567849876686303518072349544274627034817537182391253205600648212777061536796837760,
  -311157671547281186585905330322717104526806291920954782254456457853904622829879750702489687366712896923303372110375172970609102660,
  -267896861553503428581598596625442939347823208479327444251723628900438738615961726009908757916724872921204663829234633474386248210,
  -224088753633999013281464115083415341105068244677770299359145348079094306052749635460868390944117475641583117922813765083836609440,
  -179822845240643164359713218106239913411693524126622251791021156916797723044220333994341845389313829166627621445991569746960912270,
  -135189569085682992158471603969917145343787259489228089735816732320225967279687683195733442671857128651637208607708251508838586460,
  -90280108392828742562119667064008114601971841470811049606809800403940756348725311815244071676127975537187392493332949975681445521,
  -45186210615101723531632403458113391993108492552853503006762530565692218801354767431738702947261974661922065653527364659879749652,
  0,
  45186210615101723531632403458113391993108492552853503006762530565692218801354767431738702947261974661922065653527364659879749652,
  90280108392828742562119667064008114601971841470811049606809800403940756348725311815244071676127975537187392493332949975681445521,
  135189569085682992158471603969917145343787259489228089735816732320225967279687683195733442671857128651637208607708251508838586460,
  179822845240643164359713218106239913411693524126622251791021156916797723044220333994341845389313829166627621445991569746960912270,
  224088753633999013281464115083415341105068244677770299359145348079094306052749635460868390944117475641583117922813765083836609440,
  267896861553503428581598596625442939347823208479327444251723628900438738615961726009908757916724872921204663829234633474386248210,
  311157671547281186585905330322717104526806291920954782254456457853904622829879750702489687366712896923303372110375172970609102660,
  353782804262066317960127093452869700777407605875567849876686303518072349544274627034817537182391253205600648212777061536796837760,
  395685178997244447351756104594377325152207198132734431313265926032059208207643954521137767823891107899002575930376214441193131440,
  436779191605844420869876893385921824711636148983037637962985639514956339668119220726316338207554019017786384540621799966425238010,
  476980889379045710341440876655055089165849446756501418789842848579168273868482803932089420296276920931503742249720531166366779300,
  516208142556933709171820720450272673190290622857118177895761129226104945894780223929790119798741258797754924524614554036792486950,
  554380812115132014537972991218126579208803180098405524823466875848376584820162199814103693496563666810568581794731806483464055440,
  591420913484555825569309504422024967467834297545004188100883670976630159728817205806850490099510232641473453257400045782548626740,
  627252775869849401767457558667283824227201598428127082036819682573237910303137497034429790738065326591500616647480787374112396960,
  661803196841078244024226231614807985779437914822913330348237350061019876521710088271426062108151009538675243084130377594192708390,
  695001591882928460929743852286597981900731111333652840341694972180552251661795830558526680609413309818008395095918921350433777650,
  726780138596008088657160129952025250195829144929850753446865095983803044206487181734314067143337416289964395027399990380314490610,
  757073915255837851594723194432757345040595811560041361457842766191300291371934161915105111003571677323602970999109118933850554320,
  785821033446759760335369049080552068152902401373973682293303184430257203249464108959974722143135656334922120508668425305039961340,
  812962764500295613856480080975953547060930039832262219660091653668074358124875453150000481021856699602333044274717986254666423000,
  838443659480504213261616472985085945938309810474838292790593650628762692955754058395927660792183866700603745719871157221163498200,
  862211662472744083857172022828939726551682034096877176886466077563130781400067583642655235322603829736693610710288664065856527390,
  884218216947252436662818857563874950920790269303617986369531279788558185921406035922944851657423092938783012121338135914826662740,
  904418364985827140066524833236586299114434322805359800363575393794776602903043226041425178774440900553025197047013598812072059040,
  922770839180444997188817784539705526962242686306349977617084505507703422677535521888471673104690025108402213088885597207371653810,
  939238147041608472966835800156577238157035986768503204257065088046318233531714639987428005809139942110200577601510759392047055100,
  953786647805181897533939837631103131436864310294051909975297072129148056983608123291066498663760480967141502271542354940758112940,
  966386621642860566855799811670797215491623114185112404616351210660596631235617348589140486814199233183257692779287581217045169730,
  977012331622094263389466091021529505984530174637742792321795078099124067889326877965503785917423131438871191527463581395430117920,
  985642080022637593237139352621122545919741596491455173609717419208151426065985920338604290819397277273921730385674671655729164860,
  992258266716853118700433913219466785756114568711453182994442523687147066433069241610380281859321364205872872576784230271793002210,
  996847500485195100459497014953645209357845167340067408497238133787044195135763592637728344590472349848157877886599215767548829680,
  999401427543244788208060967646121418501571749161728442221289304338857283883325989946572592029839047735679540882341903911572807620]

/-- `case 69` (Util/Gauss_Legendre_Nodes_and_Weights.hpp:12124-12472), `weights`. -/
def weights69 : List Nat := [
  1535976952792084075129401837741789731514497275485288221174836240380045271208881763007202025440607116370000000000000000000000000,
  3572416739397372609703745228501396346201450874356417373276608673628531677523198059213502019893413504520000000000000000000000000,
  5604579927870594828535991933690381797483610378671738061921305124746885433558825045531166262105922153700000000000000000000000000,
  7625555931201510611458269616610997816093412458301503806516608394487241229831284697756042583451079493000000000000000000000000000,
  9631006150415575588660297004708752651773587266690115472400129848309435358378994436633541765828388216100000000000000000000000000,
  11616796610671965548739872945451632632129550470108279566288234837434807037459941821152610972922654726400000000000000000000000000,
  13578860649075670999811867628780425603876039180925865840577052073910942144220655728037321986337925796600000000000000000000000000,
  15513186543406164739769108723670523087959055032518439200578592469422289278040586975784452533314583756400000000000000000000000000,
  17415821231969829132073787308551344939097092960942911722580830820232078353762883514870547570567345918700000000000000000000000000,
  19282877128849402789244378049102274678425401469833569874902549931563869008308904542513475491721465352200000000000000000000000000,
  21110539639871894627890176502082105243421459165961422115293341361245253552998751889506057344967671161690000000000000000000000000,
  22895074790740785655521450480678908969251327860933714105539457548302751849897954820525815106360527830843000000000000000000000000,
  24632836784542455364335897590140846687163647171009520206562755639936686791601660568084454716298145345202000000000000000000000000,
  26320275416869483791760731018019189196761069763841572149795025656075734806023773151431594555370907982439500000000000000000000000,
  27953943312187705990861706104602131802554152201738177670840208359443421405970340981256885835179009700872200000000000000000000000,
  29530502957906711779811061173625238061695227645778296817940431394325354362562240165208938673790716136773370000000000000000000000,
  31046733517890539032685717200152749449063224361195552286118777468062003298918561509878799490644902974488280000000000000000000000,
  32499537409646111244733895007203030598190932798012022177576523735946734175082093711821544645286706623807877000000000000000000000,
  33885946630832289497809820752437357417795644312126166566286512022072601197465078195912728238655811343708595400000000000000000000,
  35203128821683486147754363507786850823023484589632794159664791151855329403654926963513784047921879089846229160000000000000000000,
  36448393050700514056643508468622461685795808867418787108089106016431059219396870626757683120371474896078599993000000000000000000,
  37619195311640906508158366573555173459314520346845475070624152437068127424334210501838207290942397790263214079000000000000000000,
  38713143720492513932739446149230413421577373316751832293447787038214798309565113191065966840422354051653253600900000000000000000,
  39728003401761641206458546910073128639467026861437363453525584412302614186009058640066928520822415353842852441237000000000000000,
  40661701054061600537526020309038943958240858182807024114373300405430832783551184069019530353372622650753065800397200000000000000,
  41512329185654502082874061668411991041743561739046445668151153278056994988093237332609260252421843047187650123447360000000000000,
  42278150011280512851582686257676056344465993129486354285428893123249116776741141643439529611378768186845463864406798000000000000,
  42957599002305213878419902225277814341203625163175471126429488968358364748780272749000583396994238801687890339477686200000000000,
  43549288082926741033575777062068889961651362328606079617569603977361336196377359884664267268683491121962515016622895366000000000,
  44052008465909284380985917322006562582076361763546688282367899125569427367351079024144668588995146276772584960952335596800000000,
  44464733122047138096231097341918763155424265287330365702723928419958671311889139353983381806382121374977178171163018708240000000,
  44786618878312557542135278224806025913176728448355276306365140850295790715478477230107629970945461017532371033902234048071400000,
  45017008140399802198716192716043784892947066043670710030228504143676273145560146365819180815834859724075759278918591669520200000,
  45155430236145460516517053219963928520630212567322213002319160388049807905479884552524649672519228618580907371501978116921979000,
  45201602377079954242289211875536269097622737432273093085043449329189578569846572586636133247707825728411547338630897158976217549,
  45155430236145460516517053219963928520630212567322213002319160388049807905479884552524649672519228618580907371501978116921979000,
  45017008140399802198716192716043784892947066043670710030228504143676273145560146365819180815834859724075759278918591669520200000,
  44786618878312557542135278224806025913176728448355276306365140850295790715478477230107629970945461017532371033902234048071400000,
  44464733122047138096231097341918763155424265287330365702723928419958671311889139353983381806382121374977178171163018708240000000,
  44052008465909284380985917322006562582076361763546688282367899125569427367351079024144668588995146276772584960952335596800000000,
  43549288082926741033575777062068889961651362328606079617569603977361336196377359884664267268683491121962515016622895366000000000,
  42957599002305213878419902225277814341203625163175471126429488968358364748780272749000583396994238801687890339477686200000000000,
  42278150011280512851582686257676056344465993129486354285428893123249116776741141643439529611378768186845463864406798000000000000,
  41512329185654502082874061668411991041743561739046445668151153278056994988093237332609260252421843047187650123447360000000000000,
  40661701054061600537526020309038943958240858182807024114373300405430832783551184069019530353372622650753065800397200000000000000,
  39728003401761641206458546910073128639467026861437363453525584412302614186009058640066928520822415353842852441237000000000000000,
  38713143720492513932739446149230413421577373316751832293447787038214798309565113191065966840422354051653253600900000000000000000,
  37619195311640906508158366573555173459314520346845475070624152437068127424334210501838207290942397790263214079000000000000000000,
  36448393050700514056643508468622461685795808867418787108089106016431059219396870626757683120371474896078599993000000000000000000,
  35203128821683486147754363507786850823023484589632794159664791151855329403654926963513784047921879089846229160000000000000000000,
  33885946630832289497809820752437357417795644312126166566286512022072601197465078195912728238655811343708595400000000000000000000,
  32499537409646111244733895007203030598190932798012022177576523735946734175082093711821544645286706623807877000000000000000000000,
  31046733517890539032685717200152749449063224361195552286118777468062003298918561509878799490644902974488280000000000000000000000,
  29530502957906711779811061173625238061695227645778296817940431394325354362562240165208938673790716136773370000000000000000000000,
  27953943312187705990861706104602131802554152201738177670840208359443421405970340981256885835179009700872200000000000000000000000,
  26320275416869483791760731018019189196761069763841572149795025656075734806023773151431594555370907982439500000000000000000000000,
  24632836784542455364335897590140846687163647171009520206562755639936686791601660568084454716298145345202000000000000000000000000,
  22895074790740785655521450480678908969251327860933714105539457548302751849897954820525815106360527830843000000000000000000000000,
  21110539639871894627890176502082105243421459165961422115293341361245253552998751889506057344967671161690000000000000000000000000,
  19282877128849402789244378049102274678425401469833569874902549931563869008308904542513475491721465352200000000000000000000000000,
  17415821231969829132073787308551344939097092960942911722580830820232078353762883514870547570567345918700000000000000000000000000,
  15513186543406164739769108723670523087959055032518439200578592469422289278040586975784452533314583756400000000000000000000000000,
  13578860649075670999811867628780425603876039180925865840577052073910942144220655728037321986337925796600000000000000000000000000,
  11616796610671965548739872945451632632129550470108279566288234837434807037459941821152610972922654726400000000000000000000000000,
  9631006150415575588660297004708752651773587266690115472400129848309435358378994436633541765828388216100000000000000000000000000,
  7625555931201510611458269616610997816093412458301503806516608394487241229831284697756042583451079493000000000000000000000000000,
  5604579927870594828535991933690381797483610378671738061921305124746885433558825045531166262105922153700000000000000000000000000,
  3572416739397372609703745228501396346201450874356417373276608673628531677523198059213502019893413504520000000000000000000000000,
  1535976952792084075129401837741789731514497275485288221174836240380045271208881763007202025440607116370000000000000000000000000]

/-- `case 70` (Util/Gauss_Legendre_Nodes_and_Weights.hpp:12474-12828), `nodes`. -/
def nodes70 : List Int := [
  -999418285973575842056742581885209384618536739215528309206632473730416440813832654334938354498183787129697447371038781071585071090,
  -996936251961680156609813495834155511882375277952905190378831257852673306478487340895023349504556933615671048960460012617314971610,
  -992476055211689981098942085759390018488321582721226060311902818306104052961322296510155350841980947052774629822470682978237982000,
  -986045558070398659927101339317334885488302559072793256979776978017358633681370267949779631641198618244401888391577473496050877810,
  -977657405957592400393907628136232749241495719389543320297735728314282544161922969035937885095643326064792472367865529808808650310,
  -967328223664986438388618235724088736777455541193784733335414227795485873213877429150079920995303132702874249036578237514844632820,
  -955078509114292842640327354628519427217414424942369683219639378878113173749698003652940986578039245911617649074163836503664501110,
  -940932579003815355522815415741987060851722725660073913260191832761133556649091933345339545802362114111635686690131941834623741880,
  -924918516897934440272265965184887263954085744574298358242139017656888233035188845695507578369167024366816406673741478721486650510,
  -907068116260922849436352724293941865205171218518326187993955308690479087961427706419269646872306001534480004755295286630821806130,
  -887416816863348171124373489994087509027261551413603169609655327149867475987845292853964782750383273271312361691711764610571872790,
  -866003634213858629380034519420602796192469447322304675107650679919868000308757588003614492365704123315360611930413800081887027230,
  -842871081998980242318593530197434030075337400648440605797139314598626937694749404851432441272531584754337876763953720845298571420,
  -818065087625441189027231987106686883022475115102088670922129478353186792831875266355395565607397391178333796533992437792633069180,
  -791634901007892758107676174484814126749972206320813857886825566233367262261741906655674804775816597191763739551476113828965126270,
  -763632996771899568925095056496733482521691490797050826783995612008653216143657985419280740090274191903709296720519364985483143660,
  -734114970060942641307651678938198495995932358968709631556351106639237945336837244617136890362525319294703810956901464537425743210,
  -703139426151528597062947360222445769574516590788333998189128571594925397225131817924016403089938314748146458796250688356905732090,
  -670767864094077405646281195011421089483900427445083040306815915560500732345150730932039761603925772609022204029012799358291859170,
  -637064554609778096278859644687029961464806364549004033231151119742625450191717770068438951048079289070617720347853091448256584470,
  -602096412485355487336766582203437577979056893510713958181622001949587176114541156953406282577995529626252910817032196179730302070,
  -565932863718808286372959357470011838249852607902384107133382048794201615181091699535483994234767748722750047545083558842861804120,
  -528645707679711127265080756660818242110961513224547135282852244670376897709049764613618410960129993175327518068373256344240050090,
  -490308974557636589269778141352810357007931058610512274167437214885999381736041202706689342986133961148875060838660278602839313250,
  -450998778381647865731639703881117723757798876326141583544352220982237981775221254553292587806117381533448856657457890218737133260,
  -410793165902630589371262767934362980846406357760758232391804381775129711727862107878311568817731764722981397288844651745598628710,
  -369771961638461895839404694632918022944859624674668132264013345455639563685863449962817239943774448787924232418428930775726104650,
  -328016609389643257846131454487055042697674206291355751356203180473118535853911097308241840395917878390287725658192234652932940320,
  -285610010540037861691664780860388456897347329702956859514934097019367847306551467891186052651267393156564569459192149453502343130,
  -242636359463740645783579026383790441240016610966456706049345821829397751656194988522032829008362829979981920078129539294029752540,
  -199180976364857664151403461620060184567263117326871270875778596504839630924085582065113779014943286986700217575901805265519965550,
  -155330137882070247309005491502633998209806039404954864573372597941967596207764503644795221743683910734860401858839153332454878810,
  -111170905794298693735752330550280768977075944584895753207503821252383258095514616125166072216261954050609888493506371486148205640,
  -66790954167551324003719436439597526756885306427759416702663722423199433270384065424278143093645871291353516184525400897795453423,
  -22278395286140309693492782488810282969566239206609481950382254521999754023078680806327952917725515537660605738691436195940455181,
  22278395286140309693492782488810282969566239206609481950382254521999754023078680806327952917725515537660605738691436195940455181,
  66790954167551324003719436439597526756885306427759416702663722423199433270384065424278143093645871291353516184525400897795453423,
  111170905794298693735752330550280768977075944584895753207503821252383258095514616125166072216261954050609888493506371486148205640,
  155330137882070247309005491502633998209806039404954864573372597941967596207764503644795221743683910734860401858839153332454878810,
  199180976364857664151403461620060184567263117326871270875778596504839630924085582065113779014943286986700217575901805265519965550,
  242636359463740645783579026383790441240016610966456706049345821829397751656194988522032829008362829979981920078129539294029752540,
  285610010540037861691664780860388456897347329702956859514934097019367847306551467891186052651267393156564569459192149453502343130,
  328016609389643257846131454487055042697674206291355751356203180473118535853911097308241840395917878390287725658192234652932940320,
  369771961638461895839404694632918022944859624674668132264013345455639563685863449962817239943774448787924232418428930775726104650,
  410793165902630589371262767934362980846406357760758232391804381775129711727862107878311568817731764722981397288844651745598628710,
  450998778381647865731639703881117723757798876326141583544352220982237981775221254553292587806117381533448856657457890218737133260,
  490308974557636589269778141352810357007931058610512274167437214885999381736041202706689342986133961148875060838660278602839313250,
  528645707679711127265080756660818242110961513224547135282852244670376897709049764613618410960129993175327518068373256344240050090,
  565932863718808286372959357470011838249852607902384107133382048794201615181091699535483994234767748722750047545083558842861804120,
  602096412485355487336766582203437577979056893510713958181622001949587176114541156953406282577995529626252910817032196179730302070,
  637064554609778096278859644687029961464806364549004033231151119742625450191717770068438951048079289070617720347853091448256584470,
  670767864094077405646281195011421089483900427445083040306815915560500732345150730932039761603925772609022204029012799358291859170,
  703139426151528597062947360222445769574516590788333998189128571594925397225131817924016403089938314748146458796250688356905732090,
  734114970060942641307651678938198495995932358968709631556351106639237945336837244617136890362525319294703810956901464537425743210,
  763632996771899568925095056496733482521691490797050826783995612008653216143657985419280740090274191903709296720519364985483143660,
  791634901007892758107676174484814126749972206320813857886825566233367262261741906655674804775816597191763739551476113828965126270,
  818065087625441189027231987106686883022475115102088670922129478353186792831875266355395565607397391178333796533992437792633069180,
  842871081998980242318593530197434030075337400648440605797139314598626937694749404851432441272531584754337876763953720845298571420,
  866003634213858629380034519420602796192469447322304675107650679919868000308757588003614492365704123315360611930413800081887027230,
  887416816863348171124373489994087509027261551413603169609655327149867475987845292853964782750383273271312361691711764610571872790,
  907068116260922849436352724293941865205171218518326187993955308690479087961427706419269646872306001534480004755295286630821806130,
  924918516897934440272265965184887263954085744574298358242139017656888233035188845695507578369167024366816406673741478721486650510,
  940932579003815355522815415741987060851722725660073913260191832761133556649091933345339545802362114111635686690131941834623741880,
  955078509114292842640327354628519427217414424942369683219639378878113173749698003652940986578039245911617649074163836503664501110,
  967328223664986438388618235724088736777455541193784733335414227795485873213877429150079920995303132702874249036578237514844632820,
  977657405957592400393907628136232749241495719389543320297735728314282544161922969035937885095643326064792472367865529808808650310,
  986045558070398659927101339317334885488302559072793256979776978017358633681370267949779631641198618244401888391577473496050877810,
  992476055211689981098942085759390018488321582721226060311902818306104052961322296510155350841980947052774629822470682978237982000,
  996936251961680156609813495834155511882375277952905190378831257852673306478487340895023349504556933615671048960460012617314971610,
  999418285973575842056742581885209384618536739215528309206632473730416440813832654334938354498183787129697447371038781071585071090]

/-- `case 70` (Util/Gauss_Legendre_Nodes_and_Weights.hpp:12474-12828), `weights`. -/
def weights70 : List Nat := [
  1492721288844515731039356057137858746095656633171934758879074175899018541913826604243830665936066696440000000000000000000000000,
  3471894893078143254999192481046330455332570823277120524276915394579882834750016632995932001469939841600000000000000000000000000,
  5447111874217218312820965623896901744569301560385383851885063769541066049381474889186158992823041896800000000000000000000000000,
  7411769363190210362110927323203025003709003510948199871025497449196546847240741929475316408294288901800000000000000000000000000,
  9361762769699026811499514235786039837930924320814165938857572312488380905584035943592724075253025389800000000000000000000000000,
  11293184649931537649630996977144841733039425786413213797151548959045294498004478352813114248416100566300000000000000000000000000,
  13202190814676747625073490886484291554037702653441005679475540051973224860359554306185422401493064718700000000000000000000000000,
  15084987865443127682295187214396544714657720318447552395507260797575942975930047925069287552253092273100000000000000000000000000,
  16937836376302932531836854174687311580470529779210831967442984583578152434668810039753521691696103383300000000000000000000000000,
  18757057093133423415451130321869916766659456749232139606801572411633038262806284472409927943591872509200000000000000000000000000,
  20539037824326453384492580332673068660717268209870314108834685502668721582058926530570263837302821092790000000000000000000000000,
  22280240452256595833890841619544140004259795208837569911307791154972765630437953043283877955717792597510000000000000000000000000,
  23977207889100292278686694153533427007060704043451698311268569451494383075004904697287564411159860777892000000000000000000000000,
  25626570908468482798984832299384571061155932189069682927503511716753762791104299658869870663951664561027000000000000000000000000,
  27225054818664417159107210162433137021192065267278066477929564846971910586109220960524059317640702307381600000000000000000000000,
  28769485955808280661310383780205040563654523062929104437523266929294529878169379107120008188124121900899300000000000000000000000,
  30256797980154237816536743572432669230172603758570236455638868486413647215509028948358664552507153151862640000000000000000000000,
  31684037961308481734652856022467675380557525174734778776189665009083821710944496559252673641598437792199025000000000000000000000,
  33048372239372420470874285397913946312400980911513989003070428728525199573639566870074454887846849284025685000000000000000000000,
  34347092049906537568545329348534831569322417024900971965902529007491634590496304017597706018637521227560820900000000000000000000,
  35577618901292380532769713952614919112529301127705913020638553793987387381845240079033828103164366483550288170000000000000000000,
  36737509693672695348040275894729587098264218908519274705432628992578154978002484880559329041904244662274524847000000000000000000,
  37824461569222817197272139199015094325744851121967828643379301484271610588621172914778268954230653582771725772600000000000000000,
  38836316484073403979003043596884958156920871534168682602204856231278401290960994988165537563476580495459324267620000000000000000,
  39771065492776567477849545993125740658443374580871195068147157151539364600796320495054673036546518170847519150885000000000000000,
  40626852736789616351225910856538755022928151532883703559792430953910657082062190909543042703912990989540219557880000000000000000,
  41401979129045208638226503979721257164736022848422501550149942293304425352167792829289552338047997462096460294860962000000000000,
  42094905727284406020983888182673895978558289182258932203094647870112711814633988135060577406979684827980893429975712100000000000,
  42704256789449777769965710244338832157076411871907863532177287103727865613091561951965063472184474473117860782471027650000000000,
  43228822505068699789395238774478397813645983368921360108166673968075036992688713848507197097517923704164780660681174509000000000,
  43667561397201440252548428891981706465312879033798931864156561812327556214100707188149686217965105362032242453153120535820000000,
  44019602390183458757355780351114829418709003678014442557414784461954973877722727407702938963643948751236182224731716024069000000,
  44284246539055406775799674391954546066344110308970756864519336991739942882358990777556751236855892472058356918529966895781740000,
  44460968417246370823557276625895536359233687171846454516364455174608645074869527099091439805924456658037575174288085236318609000,
  44549417159754667202167497080156375254556736743244198437889470977402341411964235006877734601931641034577097526605273334109177010,
  44549417159754667202167497080156375254556736743244198437889470977402341411964235006877734601931641034577097526605273334109177010,
  44460968417246370823557276625895536359233687171846454516364455174608645074869527099091439805924456658037575174288085236318609000,
  44284246539055406775799674391954546066344110308970756864519336991739942882358990777556751236855892472058356918529966895781740000,
  44019602390183458757355780351114829418709003678014442557414784461954973877722727407702938963643948751236182224731716024069000000,
  43667561397201440252548428891981706465312879033798931864156561812327556214100707188149686217965105362032242453153120535820000000,
  43228822505068699789395238774478397813645983368921360108166673968075036992688713848507197097517923704164780660681174509000000000,
  42704256789449777769965710244338832157076411871907863532177287103727865613091561951965063472184474473117860782471027650000000000,
  42094905727284406020983888182673895978558289182258932203094647870112711814633988135060577406979684827980893429975712100000000000,
  41401979129045208638226503979721257164736022848422501550149942293304425352167792829289552338047997462096460294860962000000000000,
  40626852736789616351225910856538755022928151532883703559792430953910657082062190909543042703912990989540219557880000000000000000,
  39771065492776567477849545993125740658443374580871195068147157151539364600796320495054673036546518170847519150885000000000000000,
  38836316484073403979003043596884958156920871534168682602204856231278401290960994988165537563476580495459324267620000000000000000,
  37824461569222817197272139199015094325744851121967828643379301484271610588621172914778268954230653582771725772600000000000000000,
  36737509693672695348040275894729587098264218908519274705432628992578154978002484880559329041904244662274524847000000000000000000,
  35577618901292380532769713952614919112529301127705913020638553793987387381845240079033828103164366483550288170000000000000000000,
  34347092049906537568545329348534831569322417024900971965902529007491634590496304017597706018637521227560820900000000000000000000,
  33048372239372420470874285397913946312400980911513989003070428728525199573639566870074454887846849284025685000000000000000000000,
  31684037961308481734652856022467675380557525174734778776189665009083821710944496559252673641598437792199025000000000000000000000,
  30256797980154237816536743572432669230172603758570236455638868486413647215509028948358664552507153151862640000000000000000000000,
  28769485955808280661310383780205040563654523062929104437523266929294529878169379107120008188124121900899300000000000000000000000,
  27225054818664417159107210162433137021192065267278066477929564846971910586109220960524059317640702307381600000000000000000000000,
  25626570908468482798984832299384571061155932189069682927503511716753762791104299658869870663951664561027000000000000000000000000,
  23977207889100292278686694153533427007060704043451698311268569451494383075004904697287564411159860777892000000000000000000000000,
  22280240452256595833890841619544140004259795208837569911307791154972765630437953043283877955717792597510000000000000000000000000,
  20539037824326453384492580332673068660717268209870314108834685502668721582058926530570263837302821092790000000000000000000000000,
  18757057093133423415451130321869916766659456749232139606801572411633038262806284472409927943591872509200000000000000000000000000,
  16937836376302932531836854174687311580470529779210831967442984583578152434668810039753521691696103383300000000000000000000000000,
  15084987865443127682295187214396544714657720318447552395507260797575942975930047925069287552253092273100000000000000000000000000,
  13202190814676747625073490886484291554037702653441005679475540051973224860359554306185422401493064718700000000000000000000000000,
  11293184649931537649630996977144841733039425786413213797151548959045294498004478352813114248416100566300000000000000000000000000,
  9361762769699026811499514235786039837930924320814165938857572312488380905584035943592724075253025389800000000000000000000000000,
  7411769363190210362110927323203025003709003510948199871025497449196546847240741929475316408294288901800000000000000000000000000,
  5447111874217218312820965623896901744569301560385383851885063769541066049381474889186158992823041896800000000000000000000000000,
  3471894893078143254999192481046330455332570823277120524276915394579882834750016632995932001469939841600000000000000000000000000,
  1492721288844515731039356057137858746095656633171934758879074175899018541913826604243830665936066696440000000000000000000000000]

/-- `case 71` (Util/Gauss_Legendre_Nodes_and_Weights.hpp:12830-13188), `nodes`. -/
def nodes71 : List Int := [
  -999434442119736927561659947165788802298739081612151999159451122533214808399411286400691131163634655562260427481163443384997495680,
  -997021308251255130065672598011236089340474410495241301328469100948857848631772424427000245317040504693502422615966452978898731080,
  -992684784870641569941805634716360934951173602037716405252145416598037229719352368008262793672690567507482090664556536061653524560,
  -986432277268261368092141846666401235736474008513692298949044446130353766954455733249143877200896902502510068005468192024750423970,
  -978275736113601792874824071538055917684983131427922557700587795755323007518437196794647057456152713255898371462115429059190060850,
  -968230877426325345680304591241661204564606949654257646575921269885152728586305137611864694117414017349938995464011270307361466200,
  -956317081041052874884704374972883734077855633548672997768807015294983589966234685582359892671877751413794862698001980642189992360,
  -942557339922271159124395673778629390681514279243345096812646947195738725398388941112032863505728643784044299135864956866545981980,
  -926978212250871410768130508728779607671793079987652055121735714364197101977000069062387429681235892107203226993677349162467280910,
  -909609768984534359441634902284893475411374780683130213389255965374943025227107805301098242847669523554700395588454429897664538120,
  -890485535355206511673911760992317897102725280979527462386961565280954750368765849922868860843752993469058571492538968768716718020,
  -869642425956307411147088203065831137487480335663305650067498916194641261964968917453764216587228680392348998381956730348391290630,
  -847120673391873968941067191862633671351116088011440443262971949256797592767066249112320616086647573384141789554451441051709505780,
  -822963750567552752389365050298679071544958206779541608457880822057259606854597951905670329590589209799712930363255426671323343250,
  -797218286749317960639490742120977266185278351221354630127723162825157098658853514961426381065831654986497577935540540951022073940,
  -769933977541036647405165361694960661515341473569922375729202029876223635754976208351469420349146615566819838114291419634504586900,
  -741163488949376848010344106748474565391591509988864481692714196435568943809057346341302684631230442202308813729761171772875086040,
  -710962355718544370974605259809150893242834795586404824494611548967118620701699350891553180355056922206746540941466263156636309270,
  -679388874129644576284578125360444135533026359641342494595784797743123395439011555842267304198901432170878106819044219029985140150,
  -646503989470787642801403479107570030413989390874414451886021760349282787708949225374878834119153930468111158021622833251016861750,
  -612371178394682336310376090632725793250179577597355833440543354672576392627895313437091371629145992708142352079445216985575277980,
  -577056326390519810485798997182950680454395167071188334679826482842987033714550685742757210207282091309027145783598522786540145420,
  -540627600606487356004911333591178463427493142135686338582296666458519551122263181023556128610033385904947633192886722947584360920,
  -503155318268290070833605381553926540529036365276537954589815924151430267598198251317615329718669022146493281238580277803896376650,
  -464711810947597822947578627298184232511512069929905430169361432181946640999361140617662963689055337692784683078131339418856724190,
  -425371284942369555863251487218949635479469923717792448484533314275902865196631687666900894411152030231253237902180337199689873110,
  -385209678038527295989720328015301205917412926356972098964092255546994461028771294167705360622826685161346260525309092219207080620,
  -344304512929447024710467470167334658277824504944222386143744964754428434633802267687161385040492583170221930710259994960531679680,
  -302734747576191376434942069152515034750656754282699219326832429158906383038054442935798318976395379539162590304010103970903246270,
  -260580622797318662023926452892419042887009652179624225091814261381254034375347687300555946574760346076939458513913613921501623880,
  -217923507382453335534383026417590926518883604027774274052513214102320892603402731359423253513800917574824873060249262649529503460,
  -174845741028584863169687589857438020785521225580316558294983759816111093285396590539513247307623887102832568265406166490035999690,
  -131430475402266087012909921506162567349678731612612243069743174110045559877895192421169178482562597579269730242595632355078988640,
  -87761513634500682361806903386413130127319017898311811286555437897967583089049304034475005179385299353114190998378996859144642777,
  -43923148558135329332216935146720822400824361574927749349583761368138731072363744321979567985266000896754597087720665257425149040,
  0,
  43923148558135329332216935146720822400824361574927749349583761368138731072363744321979567985266000896754597087720665257425149040,
  87761513634500682361806903386413130127319017898311811286555437897967583089049304034475005179385299353114190998378996859144642777,
  131430475402266087012909921506162567349678731612612243069743174110045559877895192421169178482562597579269730242595632355078988640,
  174845741028584863169687589857438020785521225580316558294983759816111093285396590539513247307623887102832568265406166490035999690,
  217923507382453335534383026417590926518883604027774274052513214102320892603402731359423253513800917574824873060249262649529503460,
  260580622797318662023926452892419042887009652179624225091814261381254034375347687300555946574760346076939458513913613921501623880,
  302734747576191376434942069152515034750656754282699219326832429158906383038054442935798318976395379539162590304010103970903246270,
  344304512929447024710467470167334658277824504944222386143744964754428434633802267687161385040492583170221930710259994960531679680,
  385209678038527295989720328015301205917412926356972098964092255546994461028771294167705360622826685161346260525309092219207080620,
  425371284942369555863251487218949635479469923717792448484533314275902865196631687666900894411152030231253237902180337199689873110,
  464711810947597822947578627298184232511512069929905430169361432181946640999361140617662963689055337692784683078131339418856724190,
  503155318268290070833605381553926540529036365276537954589815924151430267598198251317615329718669022146493281238580277803896376650,
  540627600606487356004911333591178463427493142135686338582296666458519551122263181023556128610033385904947633192886722947584360920,
  577056326390519810485798997182950680454395167071188334679826482842987033714550685742757210207282091309027145783598522786540145420,
  612371178394682336310376090632725793250179577597355833440543354672576392627895313437091371629145992708142352079445216985575277980,
  646503989470787642801403479107570030413989390874414451886021760349282787708949225374878834119153930468111158021622833251016861750,
  679388874129644576284578125360444135533026359641342494595784797743123395439011555842267304198901432170878106819044219029985140150,
  710962355718544370974605259809150893242834795586404824494611548967118620701699350891553180355056922206746540941466263156636309270,
  741163488949376848010344106748474565391591509988864481692714196435568943809057346341302684631230442202308813729761171772875086040,
  769933977541036647405165361694960661515341473569922375729202029876223635754976208351469420349146615566819838114291419634504586900,
  797218286749317960639490742120977266185278351221354630127723162825157098658853514961426381065831654986497577935540540951022073940,
  822963750567552752389365050298679071544958206779541608457880822057259606854597951905670329590589209799712930363255426671323343250,
  847120673391873968941067191862633671351116088011440443262971949256797592767066249112320616086647573384141789554451441051709505780,
  869642425956307411147088203065831137487480335663305650067498916194641261964968917453764216587228680392348998381956730348391290630,
  890485535355206511673911760992317897102725280979527462386961565280954750368765849922868860843752993469058571492538968768716718020,
  909609768984534359441634902284893475411374780683130213389255965374943025227107805301098242847669523554700395588454429897664538120,
  926978212250871410768130508728779607671793079987652055121735714364197101977000069062387429681235892107203226993677349162467280910,
  942557339922271159124395673778629390681514279243345096812646947195738725398388941112032863505728643784044299135864956866545981980,
  956317081041052874884704374972883734077855633548672997768807015294983589966234685582359892671877751413794862698001980642189992360,
  968230877426325345680304591241661204564606949654257646575921269885152728586305137611864694117414017349938995464011270307361466200,
  978275736113601792874824071538055917684983131427922557700587795755323007518437196794647057456152713255898371462115429059190060850,
  986432277268261368092141846666401235736474008513692298949044446130353766954455733249143877200896902502510068005468192024750423970,
  992684784870641569941805634716360934951173602037716405252145416598037229719352368008262793672690567507482090664556536061653524560,
  997021308251255130065672598011236089340474410495241301328469100948857848631772424427000245317040504693502422615966452978898731080,
  999434442119736927561659947165788802298739081612151999159451122533214808399411286400691131163634655562260427481163443384997495680]

/-- `case 71` (Util/Gauss_Legendre_Nodes_and_Weights.hpp:12830-13188), `weights`. -/
def weights71 : List Nat := [
  1451267330029397268498041026860184899015195860389986988017371291355228437384022693826542187776321760810000000000000000000000000,
  3375555496730675865126690608324219781362080280160332447861887605640704346482962148742083626580691569700000000000000000000000000,
  5296182844025892632679621014764120761192444130665314979055954581280320898340987882678757732529744422000000000000000000000000000,
  7206835281831493387344653421939332022036703386712876551713699444947382380641181403086037558955179262000000000000000000000000000,
  9103626461992005851316747544721601579014522178518805573026750477534538305077358942671274790321823922000000000000000000000000000,
  10982860154298551706274545207154088999635752332422840183674735825915445948611811708561530090387240907000000000000000000000000000,
  12840899668087806070417952604489702610691643984393679336005332199576504786429086375201334942114409577000000000000000000000000000,
  14674155334611529200407627980064576639563009000107566344678368008722659923243473880259990822148053109000000000000000000000000000,
  16479087207462396550592440619987506573451253441149847890321057386087751067524565569092349665728383289000000000000000000000000000,
  18252210704678670502329380325133952016450157949167718020823460057489197087605175748200080199984384093300000000000000000000000000,
  19990102932350111287485143727483212617024388939309988727241498962454179111485158239969509466117378459300000000000000000000000000,
  21689409135985367961832326462376860822987251229666127252155789762921931576231528369513690640602412586000000000000000000000000000,
  23346849109223252631714953177596853867141257996248460330898646912835920460968482689786925914774297802670000000000000000000000000,
  24959223494313873055275671073154073639685975071255097996232001424693518805845294525438642616679956189538000000000000000000000000,
  26523419942157908008105454052560453679354956492087743118152626919282350933975983350144308303695683463063000000000000000000000000,
  28036419111741490617980013932083999691854146351405620079323132659789315032050351423183932003184780540127200000000000000000000000,
  29495300493708812464936487540644756909780234515664145239950136733339944150327282028176361107846602018752610000000000000000000000,
  30897248045090721698605840872737088145563987367925463810354162596029770144542205765340818097665897137107590000000000000000000000,
  32239555623443526941907160269518956750711472169496228752534984828599571070345464074258330950621205374042782000000000000000000000,
  33519632209454030834406128936400537684063220291949254768793272362846304383240446654300306076985210918543646000000000000000000000,
  34735006907682188375365273070109090970222048398376909495256866419069127331322790096769919581950446583576918890000000000000000000,
  35883333715648910777968427220083448520476740213549521459346306749100004200460802867282773105515696471630051076000000000000000000,
  36962396051982031856082917720137966507105305899841541894502379020498824039471592341977508653590202297124718464200000000000000000,
  37970111034831156214417961918528752189718155469913922527597408011609409166003940553204285751895895544744984612180000000000000000,
  38904533502262947492402742904246259044740928912378038725180549930944958579338218260236867090860560167153367985801000000000000000,
  39763859766857581674337058512102962695811684806663000430627998069645629205861390772369207524672081579553676052017000000000000000,
  40546431097246896434925221946931247859629681751330121045001033125689647444893288581235345742992215657803720405590270000000000000,
  41250736919866024249108893037062896009923334271546111752892463712027227795649109893568646845110169571178037910254484000000000000,
  41875417734733006189542603273560310689158909791269250441017185713753469811245896710406150921025697545851438782559479300000000000,
  42419267739624593035339326643289700469624636673832119051338809929210856804054250624669341631240081452394554095082191789000000000,
  42881237157580435020607086351868404044955509476406151630525905366139043669193151879209073833402305111126378984276084646900000000,
  43260434263241266598856255616360747431749827223254556939668066482511083150023766490975871954796774606663006815603908889350000000,
  43556127104108533371133972362875564946145507602921998816882584164444726052889333432061450105891744567440390411406084638866600000,
  43767744913402144972309825086026431815389995180100103380472886884967278949314006687426332142711336558118757841137146970712360000,
  43894879211788586321252566615855673855657645591407536947191200789576929265314627053044379347837126951153756616527803525109363900,
  43937284595852365758225974645928926518220871537024034143366971178938491369222020566260077943616017867331200547369846474704119419,
  43894879211788586321252566615855673855657645591407536947191200789576929265314627053044379347837126951153756616527803525109363900,
  43767744913402144972309825086026431815389995180100103380472886884967278949314006687426332142711336558118757841137146970712360000,
  43556127104108533371133972362875564946145507602921998816882584164444726052889333432061450105891744567440390411406084638866600000,
  43260434263241266598856255616360747431749827223254556939668066482511083150023766490975871954796774606663006815603908889350000000,
  42881237157580435020607086351868404044955509476406151630525905366139043669193151879209073833402305111126378984276084646900000000,
  42419267739624593035339326643289700469624636673832119051338809929210856804054250624669341631240081452394554095082191789000000000,
  41875417734733006189542603273560310689158909791269250441017185713753469811245896710406150921025697545851438782559479300000000000,
  41250736919866024249108893037062896009923334271546111752892463712027227795649109893568646845110169571178037910254484000000000000,
  40546431097246896434925221946931247859629681751330121045001033125689647444893288581235345742992215657803720405590270000000000000,
  39763859766857581674337058512102962695811684806663000430627998069645629205861390772369207524672081579553676052017000000000000000,
  38904533502262947492402742904246259044740928912378038725180549930944958579338218260236867090860560167153367985801000000000000000,
  37970111034831156214417961918528752189718155469913922527597408011609409166003940553204285751895895544744984612180000000000000000,
  36962396051982031856082917720137966507105305899841541894502379020498824039471592341977508653590202297124718464200000000000000000,
  35883333715648910777968427220083448520476740213549521459346306749100004200460802867282773105515696471630051076000000000000000000,
  34735006907682188375365273070109090970222048398376909495256866419069127331322790096769919581950446583576918890000000000000000000,
  33519632209454030834406128936400537684063220291949254768793272362846304383240446654300306076985210918543646000000000000000000000,
  32239555623443526941907160269518956750711472169496228752534984828599571070345464074258330950621205374042782000000000000000000000,
  30897248045090721698605840872737088145563987367925463810354162596029770144542205765340818097665897137107590000000000000000000000,
  29495300493708812464936487540644756909780234515664145239950136733339944150327282028176361107846602018752610000000000000000000000,
  28036419111741490617980013932083999691854146351405620079323132659789315032050351423183932003184780540127200000000000000000000000,
  26523419942157908008105454052560453679354956492087743118152626919282350933975983350144308303695683463063000000000000000000000000,
  24959223494313873055275671073154073639685975071255097996232001424693518805845294525438642616679956189538000000000000000000000000,
  23346849109223252631714953177596853867141257996248460330898646912835920460968482689786925914774297802670000000000000000000000000,
  21689409135985367961832326462376860822987251229666127252155789762921931576231528369513690640602412586000000000000000000000000000,
  19990102932350111287485143727483212617024388939309988727241498962454179111485158239969509466117378459300000000000000000000000000,
  18252210704678670502329380325133952016450157949167718020823460057489197087605175748200080199984384093300000000000000000000000000,
  16479087207462396550592440619987506573451253441149847890321057386087751067524565569092349665728383289000000000000000000000000000,
  14674155334611529200407627980064576639563009000107566344678368008722659923243473880259990822148053109000000000000000000000000000,
  12840899668087806070417952604489702610691643984393679336005332199576504786429086375201334942114409577000000000000000000000000000,
  10982860154298551706274545207154088999635752332422840183674735825915445948611811708561530090387240907000000000000000000000000000,
  9103626461992005851316747544721601579014522178518805573026750477534538305077358942671274790321823922000000000000000000000000000,
  7206835281831493387344653421939332022036703386712876551713699444947382380641181403086037558955179262000000000000000000000000000,
  5296182844025892632679621014764120761192444130665314979055954581280320898340987882678757732529744422000000000000000000000000000,
  3375555496730675865126690608324219781362080280160332447861887605640704346482962148742083626580691569700000000000000000000000000,
  1451267330029397268498041026860184899015195860389986988017371291355228437384022693826542187776321760810000000000000000000000000]

/-- `case 72` (Util/Gauss_Legendre_Nodes_and_Weights.hpp:13190-13554), `nodes`. -/
def nodes72 : List Int := [
  -999449934452962642181853817647208191943037763942498471250128535862726246133670096016424759290919943700509374558814650745008569840,
  -997102871642729078465966536352271481423562414633833406849812220529879490203798151682810135382755814380510478302326913238190479540,
  -992884951016801908228103840903380517287036812003722996278213585094445216827460067151571914591208306078006860058042257395937704090,
  -986803152375830465808073392454602236061490759836675542330627747401649264254293227532408833594285583853673462639870309951332995950,
  -978868778557233771796186729955174782408600785151444744739521306885226594499929938100612563280098307108621806407857318377520982700,
  -969096697998780425922170939644283821783434213055247314755502277970591597531328622608238983537786540471323615687403421169274276790,
  -957505247577698225664203305796850587761401137442816125651932407728982013413201229538890021154341894875263236622418795582864335090,
  -944116185272537965007180976330727919384608333337603757803951588086633329205346597328038180727076571606275546390746698874833776540,
  -928954645880918010572223799118714467391618849986938422768043057633892580396680900687261592529744508805140656160328893952255035790,
  -912049092688671469923029846513831333517265437571775665417125914061579658225674431429156945616612486412049255140545265422848569260,
  -893431263588091256195897045686110436686974297720271984826177363533355640924851828023888416613568837049792155502822027203001144020,
  -873136111298778905281708169805328483777882324162533002026758236022502303551748410600096261444726370658146426546476027440016415380,
  -851201737654437851111950000877115772850084594007485261274392114446513838929208347459439149744759526873852834749455650230715429410,
  -827669322022754314616560189735249401431953269668445476598678520759688526066639532849819857932169928198985792657897892305838934660,
  -802583043969291852027002961063169775814992736028369334045794572229617723989178766625502616881867522192952642370302817829709640010,
  -775990000299982562142196683813609418871390105034748903211321420989796729243417433002125728122419274729919462244775963990715793740,
  -747940116632832390670805994538476934840562816779037401308729358017316385385970718584728276522146953235628751654681686744903079480,
  -718486053662234961362461574862375592530012387145197392222057554152931695546489256034629169332052600124383873291916927429273588100,
  -687683108290467807491409378309164680257108729114239501384283452285691825730824176186679956602857823185362538694156888595769385100,
  -655589109811201056148896943420244043843577320716619026023686678290675737231413249618090415135850171051490388986232006776011363990,
  -622264311339468191007723794552380096365695073670645929532256674042437108667997357177393259510670443643698497881297779018059118360,
  -587771276691655599203772983286399223934431166487794963529466078542760315701876673992146555144032331106256443100413276386413120770,
  -552174762927714397400258234967245032528590574117752090175355042406280231168782200232857704119866449335903142690861739784174653390,
  -515541598776003523860158655091492437745301301790870603975782588056179108049838946402300116230090957255428096853194061142402747210,
  -477940559168940457183751040403268936768571123870557094716815968349214322691082317057432035834937565170047133920537223748516846300,
  -439442236124960732083875778821042694638510455751220379410492386482880488143762746771907139263915201479701901874310088090089286390,
  -400118906219161612702707674157539355930384485922288643229482181964372478703198702771347650524644489209248724553258650160135543550,
  -360044394891419237540073772549725279823006385059726093538531034583882826846542269181085431320476899967712651971188503991789128650,
  -319293937846712171332982464737174220646735724871196896315885586740309603759827475393436058425323576326810312290874388742833005380,
  -277944039807847606980110863854742487706061688139209236704881823147982234255725560207604576528822865570232762014322926535603928420,
  -236072330885759925057805077805058023099001249395396882507858580214556732663168057930037265587070862090303627425352507469444083010,
  -193757420837026059803132945231118401010550844475828257942768882216154675060628105803596334177716935995080413334890499804765613140,
  -151078751482210030326707095924422681257410503930780563774594311422285694426924744158806169914707659429556141388426041269449048510,
  -108116447562102814809633287692265318269948863261936597743794063615181711727523076683858576431006465038925172753524245907925725970,
  -64951166311857114074675543892641845062192986847238372163252018514525573334072967878247997920743324754973807750225145080611232396,
  -21663946035424044670326379115319220773340282160768419961344430695279606021003986429729305452570836615293302729901569982831567857,
  21663946035424044670326379115319220773340282160768419961344430695279606021003986429729305452570836615293302729901569982831567857,
  64951166311857114074675543892641845062192986847238372163252018514525573334072967878247997920743324754973807750225145080611232396,
  108116447562102814809633287692265318269948863261936597743794063615181711727523076683858576431006465038925172753524245907925725970,
  151078751482210030326707095924422681257410503930780563774594311422285694426924744158806169914707659429556141388426041269449048510,
  193757420837026059803132945231118401010550844475828257942768882216154675060628105803596334177716935995080413334890499804765613140,
  236072330885759925057805077805058023099001249395396882507858580214556732663168057930037265587070862090303627425352507469444083010,
  277944039807847606980110863854742487706061688139209236704881823147982234255725560207604576528822865570232762014322926535603928420,
  319293937846712171332982464737174220646735724871196896315885586740309603759827475393436058425323576326810312290874388742833005380,
  360044394891419237540073772549725279823006385059726093538531034583882826846542269181085431320476899967712651971188503991789128650,
  400118906219161612702707674157539355930384485922288643229482181964372478703198702771347650524644489209248724553258650160135543550,
  439442236124960732083875778821042694638510455751220379410492386482880488143762746771907139263915201479701901874310088090089286390,
  477940559168940457183751040403268936768571123870557094716815968349214322691082317057432035834937565170047133920537223748516846300,
  515541598776003523860158655091492437745301301790870603975782588056179108049838946402300116230090957255428096853194061142402747210,
  552174762927714397400258234967245032528590574117752090175355042406280231168782200232857704119866449335903142690861739784174653390,
  587771276691655599203772983286399223934431166487794963529466078542760315701876673992146555144032331106256443100413276386413120770,
  622264311339468191007723794552380096365695073670645929532256674042437108667997357177393259510670443643698497881297779018059118360,
  655589109811201056148896943420244043843577320716619026023686678290675737231413249618090415135850171051490388986232006776011363990,
  687683108290467807491409378309164680257108729114239501384283452285691825730824176186679956602857823185362538694156888595769385100,
  718486053662234961362461574862375592530012387145197392222057554152931695546489256034629169332052600124383873291916927429273588100,
  747940116632832390670805994538476934840562816779037401308729358017316385385970718584728276522146953235628751654681686744903079480,
  775990000299982562142196683813609418871390105034748903211321420989796729243417433002125728122419274729919462244775963990715793740,
  802583043969291852027002961063169775814992736028369334045794572229617723989178766625502616881867522192952642370302817829709640010,
  827669322022754314616560189735249401431953269668445476598678520759688526066639532849819857932169928198985792657897892305838934660,
  851201737654437851111950000877115772850084594007485261274392114446513838929208347459439149744759526873852834749455650230715429410,
  873136111298778905281708169805328483777882324162533002026758236022502303551748410600096261444726370658146426546476027440016415380,
  893431263588091256195897045686110436686974297720271984826177363533355640924851828023888416613568837049792155502822027203001144020,
  912049092688671469923029846513831333517265437571775665417125914061579658225674431429156945616612486412049255140545265422848569260,
  928954645880918010572223799118714467391618849986938422768043057633892580396680900687261592529744508805140656160328893952255035790,
  944116185272537965007180976330727919384608333337603757803951588086633329205346597328038180727076571606275546390746698874833776540,
  957505247577698225664203305796850587761401137442816125651932407728982013413201229538890021154341894875263236622418795582864335090,
  969096697998780425922170939644283821783434213055247314755502277970591597531328622608238983537786540471323615687403421169274276790,
  978868778557233771796186729955174782408600785151444744739521306885226594499929938100612563280098307108621806407857318377520982700,
  986803152375830465808073392454602236061490759836675542330627747401649264254293227532408833594285583853673462639870309951332995950,
  992884951016801908228103840903380517287036812003722996278213585094445216827460067151571914591208306078006860058042257395937704090,
  997102871642729078465966536352271481423562414633833406849812220529879490203798151682810135382755814380510478302326913238190479540,
  999449934452962642181853817647208191943037763942498471250128535862726246133670096016424759290919943700509374558814650745008569840]

/-- `case 72` (Util/Gauss_Legendre_Nodes_and_Weights.hpp:13190-13554), `weights`. -/
def weights72 : List Nat := [
  1411516393973434135719061717090481828337031952675481458381133168234938659572119586343778620077671423900000000000000000000000000,
  3283169774667495801900512902379883598230717818619546309036228631879753969662682722558805336910812142000000000000000000000000000,
  5151436018790886908250634758023355928548067420505003072427298898181965633989911325183315140938166818000000000000000000000000000,
  7010272321861863296081324455676225814875167652705169924212817708605133776310494490133599222341869575000000000000000000000000000,
  8855996073706153383957413527529757116540793418907745245053743080669539371384024623836771712602667030000000000000000000000000000,
  10685108165351897158958307687522976684771493623503869380360101106475197596143571748379414011445416747000000000000000000000000000,
  12494165619873757767782891362686103119320062057812345105010359799424124123068361810026043424278495525000000000000000000000000000,
  14279769054554193266555292958279196231836119098497971489021313049351689455069073696795420278429033165000000000000000000000000000,
  16038564950285155218161212178872764456496517710627347957928163362340072516359830315372697171325785148000000000000000000000000000,
  17767250789200653594359795458826417805729822578408194416108845242922997545274175197094390358053425601500000000000000000000000000,
  19462580863294278043017231415316334959237249284982313613679096616262740607729563978844279172792947476700000000000000000000000000,
  21121372216440553509819519700339620537900329540137424387957762867891508178426357687100575641567332258600000000000000000000000000,
  22740510555035754455931343063458366667630475263808188016335881649160907500790528201466788149885305414050000000000000000000000000,
  24316956064419164326347142175770270490043017880541380708021096717450249111561746995295432648889781884510000000000000000000000000,
  25847749100655890283897722592450424057509585733045854513767967674986680033899067907468409249266930450513000000000000000000000000,
  27330015738950934433796248243132272830680502386973834151398893187177701104885612664017091771051750914949000000000000000000000000,
  28760973164701761095125013710037707708615799516921694654477768578011704574578972684610245042589770872232400000000000000000000000,
  30137934895375479292982741987467106454611697450006938733557453552135402132682942002429682104217630436949420000000000000000000000,
  31458315822561813977775935487382885419406592881139022278298406202745829234454446012854794241711876121866540000000000000000000000,
  32719637064293846704312701083202674993039766781113084258248864219115762057617000197854060918549564915439127000000000000000000000,
  33919530618286059497196149775167858221430666687031135868609871991503938350576348744567746425804691410567073700000000000000000000,
  35055743807217870434138410519933456242916745160725783611939943871475416098133859825174930942613996417845609650000000000000000000,
  36126143507637992985631057902202596315020731953866233227199321973323722554048104155890284121151110762650695266000000000000000000,
  37128720154502899460555212021545041622090753690915630976765109438189506068506684804468032239006821030098882129400000000000000000,
  38061591513802163834375528146219171706837917325556452464518219845541031224294363937943887308505431305378987890680000000000000000,
  38923006216169663799962932765852641317717381498549550991553079118075556498900845410267841585712957481539770609151000000000000000,
  39711347044834901782398638790455625670242773708940506513194197134246659972014360175269704262650738302427563577159300000000000000,
  40425133971733970043328914256341776186098897782393079810578854256924541852270364683218862422566173537938087903805140000000000000,
  41063026936075061101936034551506152472190492974493542423518026022596506364917844337574000058056315820369000373003697600000000000,
  41623828360138598207607807266259587239518697625280010503325435452217660712208272063354137892416695008350220384252315530000000000,
  42106485397586464146587281786747267882582243495253118334672952246941621008174351334742511106335809214133519135970583171000000000,
  42510091910057720077800827655541032905604489125785241308681525486460787949137965095984541033516677900314736185711454796980000000,
  42833890168338813666839819408034299762084457173178343748124344075200256228871056006721556789668232926016525287194932292990000000,
  43077272274913699745250360597037750010878101018966105917963273803896915586895818530612775983424090734852781640778324494044540000,
  43239781305222617485265141192329742263709314474768130016979047466761906050263172256797289250482315159830062311028449586457488000,
  43321112165486537076393836899381173477715526253364724609093602503620076297326104789746304361161709067130323248097081582525804030,
  43321112165486537076393836899381173477715526253364724609093602503620076297326104789746304361161709067130323248097081582525804030,
  43239781305222617485265141192329742263709314474768130016979047466761906050263172256797289250482315159830062311028449586457488000,
  43077272274913699745250360597037750010878101018966105917963273803896915586895818530612775983424090734852781640778324494044540000,
  42833890168338813666839819408034299762084457173178343748124344075200256228871056006721556789668232926016525287194932292990000000,
  42510091910057720077800827655541032905604489125785241308681525486460787949137965095984541033516677900314736185711454796980000000,
  42106485397586464146587281786747267882582243495253118334672952246941621008174351334742511106335809214133519135970583171000000000,
  41623828360138598207607807266259587239518697625280010503325435452217660712208272063354137892416695008350220384252315530000000000,
  41063026936075061101936034551506152472190492974493542423518026022596506364917844337574000058056315820369000373003697600000000000,
  40425133971733970043328914256341776186098897782393079810578854256924541852270364683218862422566173537938087903805140000000000000,
  39711347044834901782398638790455625670242773708940506513194197134246659972014360175269704262650738302427563577159300000000000000,
  38923006216169663799962932765852641317717381498549550991553079118075556498900845410267841585712957481539770609151000000000000000,
  38061591513802163834375528146219171706837917325556452464518219845541031224294363937943887308505431305378987890680000000000000000,
  37128720154502899460555212021545041622090753690915630976765109438189506068506684804468032239006821030098882129400000000000000000,
  36126143507637992985631057902202596315020731953866233227199321973323722554048104155890284121151110762650695266000000000000000000,
  35055743807217870434138410519933456242916745160725783611939943871475416098133859825174930942613996417845609650000000000000000000,
  33919530618286059497196149775167858221430666687031135868609871991503938350576348744567746425804691410567073700000000000000000000,
  32719637064293846704312701083202674993039766781113084258248864219115762057617000197854060918549564915439127000000000000000000000,
  31458315822561813977775935487382885419406592881139022278298406202745829234454446012854794241711876121866540000000000000000000000,
  30137934895375479292982741987467106454611697450006938733557453552135402132682942002429682104217630436949420000000000000000000000,
  28760973164701761095125013710037707708615799516921694654477768578011704574578972684610245042589770872232400000000000000000000000,
  27330015738950934433796248243132272830680502386973834151398893187177701104885612664017091771051750914949000000000000000000000000,
  25847749100655890283897722592450424057509585733045854513767967674986680033899067907468409249266930450513000000000000000000000000,
  24316956064419164326347142175770270490043017880541380708021096717450249111561746995295432648889781884510000000000000000000000000,
  22740510555035754455931343063458366667630475263808188016335881649160907500790528201466788149885305414050000000000000000000000000,
  21121372216440553509819519700339620537900329540137424387957762867891508178426357687100575641567332258600000000000000000000000000,
  19462580863294278043017231415316334959237249284982313613679096616262740607729563978844279172792947476700000000000000000000000000,
  17767250789200653594359795458826417805729822578408194416108845242922997545274175197094390358053425601500000000000000000000000000,
  16038564950285155218161212178872764456496517710627347957928163362340072516359830315372697171325785148000000000000000000000000000,
  14279769054554193266555292958279196231836119098497971489021313049351689455069073696795420278429033165000000000000000000000000000,
  12494165619873757767782891362686103119320062057812345105010359799424124123068361810026043424278495525000000000000000000000000000,
  10685108165351897158958307687522976684771493623503869380360101106475197596143571748379414011445416747000000000000000000000000000,
  8855996073706153383957413527529757116540793418907745245053743080669539371384024623836771712602667030000000000000000000000000000,
  7010272321861863296081324455676225814875167652705169924212817708605133776310494490133599222341869575000000000000000000000000000,
  5151436018790886908250634758023355928548067420505003072427298898181965633989911325183315140938166818000000000000000000000000000,
  3283169774667495801900512902379883598230717818619546309036228631879753969662682722558805336910812142000000000000000000000000000,
  1411516393973434135719061717090481828337031952675481458381133168234938659572119586343778620077671423900000000000000000000000000]

/-- `case 73` (Util/Gauss_Legendre_Nodes_and_Weights.hpp:13556-13924), `nodes`. -/
def nodes73 : List Int := [
  -999464798845881170996471192948038454278416258977609307381740536405167245355823934092233481486380555098874052689791036285617101060,
  -997181130771611267253561485762526001978674853690970110673597393638844508611456306532145695855924821836597563488025957317051226130,
  -993077015588945151555204208088457019056108664930956206741988765557745656776465637272002786641894632670609162142013392938756191850,
  -987159036624932114781028432961552553901913362767569206835454428667208997185777053106818206482804132754975039410594313380585256150,
  -979437892056483624562704988078151376629416863704376329089001085892310086456450891244395390570099557049772285143441719070136791510,
  -969927659054985912747007663309616617419452652400070422271653247402580841315211202868708890294010123530309221465802380205297949110,
  -958645700697974220413851257028801074700461198133041164107284387908030913898187900222581149319629280554585937598886725677061219420,
  -945612621689483571931667851004401396630104143599519402136251003209545096456012140637040026603123146692835117727637638703242382410,
  -930852227381224559904698238344516143196721840073990641857507633875921172108258420696496507999402629414241905478589569060256895550,
  -914391479176256414741683526450822470512445969475201095084394238869072989202377376879807379411596390642065929463943297833629712990,
  -896260444846691221048938189948598987616389476443385707518658077507663224617392212211936481394039385507552731213027664368133417300,
  -876492243420651499825942880307109296564610608239782962904800528299873983323392598386837826308057639662008611652850575234592304530,
  -855122984594299484507990828399467063393944202064219766554562755737554991558068251420341642697948217294368579888218374224415683620,
  -832191702724909743755788339297687858377545416530969368494970466864981516093553277526002074391446273991811762320590707774239482350,
  -807740285502735924807061240368005105914620086591523570358484306663702861769217748487620024987688413530777870534622841709682626870,
  -781813397421644751334091296952683517505387665289235814258032298479238342290108987984790800896427470044062326799280386011091317660,
  -754458398183323480238445377605006493578006510347124259430250273203632936440667728389945789020601521371487985969423900460238529810,
  -725725256181559818503135729068107060565003811240403086679796556145511950749738938561255420920197816894926711959529954066059696850,
  -695666457223262717220219680898841863482516092778417456879762753405319167132625153774007415878616878444972683439617560790597662140,
  -664336908652196338882376121512606076951400479068907035320696107078094301216497093333632732797890939099141205379764259853270557530,
  -631793839050118456511040762022832048480654060158725705804584867321994058219806865684403465694028468127336744835308233443578092130,
  -598096693698270976000398858689484192693873036584106027143278032145043692124643445076915989212552379732904490188465779478038522880,
  -563307025990016512736242574231754471041331139334941462642173101207590066868308365887431240509045839283942057094366077974468371280,
  -527488384992870936800441040394176254162336695532786037097187745613320141966055580984673102042048110318549747622962737808906129640,
  -490706199365251987700222346627781977470921287404118078852695771574219270661821899597587927772533559766758723547363996543078597290,
  -453027657839945395191990527996064696055124945389304295371762348535007188712362481402301351477354707001541010988048937607501709510,
  -414521586492575763889120927829687025752961978736254792164734090839256753400244847382289805488005693132402111024952901618886101650,
  -375258323019251502905738919716108922360007666272084461586062496707003509714609731597937312006700243061368691560689650644453030320,
  -335309588253022456115741158648728730248254593013335984026325885454758130193212688130130523838374187528054024854464789721529347770,
  -294748355153836768255855097535076808889841828132845891342750483422563415166298809743380231552465457089915249852904340621952058470,
  -253648715511301393555804785177931778131971215065653147007136544661260674183546009653712297773558818673978633008353209109491978550,
  -212085744603730526527243586147974431121007082888561336743622198210733153964535876696472170759437740826992635371153998828821146050,
  -170135364060700758505645569446994515650156036599482235270566173755927025674188238654532599746872454960928543721523756092338088650,
  -127874203179614301754679116254453082190439168219364751721033868435321555157960065386374312439883396196573798365159496728007715200,
  -85379458949596300995857137156006712777535640020929701706172545579436642324900067129486505382825793031608261514605400234404204386,
  -42728755038413991185690777712425729181509775003998598663166000488416243708591806187304380218969817340184361231048204895429140979,
  0,
  42728755038413991185690777712425729181509775003998598663166000488416243708591806187304380218969817340184361231048204895429140979,
  85379458949596300995857137156006712777535640020929701706172545579436642324900067129486505382825793031608261514605400234404204386,
  127874203179614301754679116254453082190439168219364751721033868435321555157960065386374312439883396196573798365159496728007715200,
  170135364060700758505645569446994515650156036599482235270566173755927025674188238654532599746872454960928543721523756092338088650,
  212085744603730526527243586147974431121007082888561336743622198210733153964535876696472170759437740826992635371153998828821146050,
  253648715511301393555804785177931778131971215065653147007136544661260674183546009653712297773558818673978633008353209109491978550,
  294748355153836768255855097535076808889841828132845891342750483422563415166298809743380231552465457089915249852904340621952058470,
  335309588253022456115741158648728730248254593013335984026325885454758130193212688130130523838374187528054024854464789721529347770,
  375258323019251502905738919716108922360007666272084461586062496707003509714609731597937312006700243061368691560689650644453030320,
  414521586492575763889120927829687025752961978736254792164734090839256753400244847382289805488005693132402111024952901618886101650,
  453027657839945395191990527996064696055124945389304295371762348535007188712362481402301351477354707001541010988048937607501709510,
  490706199365251987700222346627781977470921287404118078852695771574219270661821899597587927772533559766758723547363996543078597290,
  527488384992870936800441040394176254162336695532786037097187745613320141966055580984673102042048110318549747622962737808906129640,
  563307025990016512736242574231754471041331139334941462642173101207590066868308365887431240509045839283942057094366077974468371280,
  598096693698270976000398858689484192693873036584106027143278032145043692124643445076915989212552379732904490188465779478038522880,
  631793839050118456511040762022832048480654060158725705804584867321994058219806865684403465694028468127336744835308233443578092130,
  664336908652196338882376121512606076951400479068907035320696107078094301216497093333632732797890939099141205379764259853270557530,
  695666457223262717220219680898841863482516092778417456879762753405319167132625153774007415878616878444972683439617560790597662140,
  725725256181559818503135729068107060565003811240403086679796556145511950749738938561255420920197816894926711959529954066059696850,
  754458398183323480238445377605006493578006510347124259430250273203632936440667728389945789020601521371487985969423900460238529810,
  781813397421644751334091296952683517505387665289235814258032298479238342290108987984790800896427470044062326799280386011091317660,
  807740285502735924807061240368005105914620086591523570358484306663702861769217748487620024987688413530777870534622841709682626870,
  832191702724909743755788339297687858377545416530969368494970466864981516093553277526002074391446273991811762320590707774239482350,
  855122984594299484507990828399467063393944202064219766554562755737554991558068251420341642697948217294368579888218374224415683620,
  876492243420651499825942880307109296564610608239782962904800528299873983323392598386837826308057639662008611652850575234592304530,
  896260444846691221048938189948598987616389476443385707518658077507663224617392212211936481394039385507552731213027664368133417300,
  914391479176256414741683526450822470512445969475201095084394238869072989202377376879807379411596390642065929463943297833629712990,
  930852227381224559904698238344516143196721840073990641857507633875921172108258420696496507999402629414241905478589569060256895550,
  945612621689483571931667851004401396630104143599519402136251003209545096456012140637040026603123146692835117727637638703242382410,
  958645700697974220413851257028801074700461198133041164107284387908030913898187900222581149319629280554585937598886725677061219420,
  969927659054985912747007663309616617419452652400070422271653247402580841315211202868708890294010123530309221465802380205297949110,
  979437892056483624562704988078151376629416863704376329089001085892310086456450891244395390570099557049772285143441719070136791510,
  987159036624932114781028432961552553901913362767569206835454428667208997185777053106818206482804132754975039410594313380585256150,
  993077015588945151555204208088457019056108664930956206741988765557745656776465637272002786641894632670609162142013392938756191850,
  997181130771611267253561485762526001978674853690970110673597393638844508611456306532145695855924821836597563488025957317051226130,
  999464798845881170996471192948038454278416258977609307381740536405167245355823934092233481486380555098874052689791036285617101060]

/-- `case 73` (Util/Gauss_Legendre_Nodes_and_Weights.hpp:13556-13924), `weights`. -/
def weights73 : List Nat := [
  1373376462759619223984270809332925927538354704101834428204995395506231519883223679242187368401062399400000000000000000000000000,
  3194524377289034522077717087433077806705234755318464713622445597648660727669221739140173542966095381000000000000000000000000000,
  5012538571606190263812699528660827128022538991337636509036601866662956468539415361997886585860961636000000000000000000000000000,
  6821631349174792362209339370206621168592674291033491689512177513638023472478632705535919013260176572000000000000000000000000000,
  8618310479532247613911816738658220281336608084116688958675205528849591072426016843471924536072971530000000000000000000000000000,
  10399260995000532201304193864003860353893706188521475258661472605016058026642352685930518005568559650000000000000000000000000000,
  12161220929281112727763223087737737933452407903906007360730838228622159024875852277151854679230710115000000000000000000000000000,
  13900968788314650867519634424008277192728339784625352952101349951123660054497751322001988436022495600000000000000000000000000000,
  15615325433591422995533611061551586882135526670163771691706371923833750987719307472248688599716042385000000000000000000000000000,
  17301158762489083005607007648463866800056195921877740969077280696101892063067490732127321765742931051000000000000000000000000000,
  18955389048670021689735968984723719410472892819405367462141014353666275271072353415102620975764628946500000000000000000000000000,
  20574994420361169166019501756878418745997750718647149434654457816102586487945339379586659532702870559000000000000000000000000000,
  22157016317040072056769802363044422407606691966446965639426720382091562999517661482697314109104475930100000000000000000000000000,
  23698564864218974626609325271567460232793805816403443308729833715567638250203639476536704728153110500310000000000000000000000000,
  25196824137538312813332252254428839618559444690904186570743358867762213104821850375102630645942753086660000000000000000000000000,
  26649057298727482952230459318191541727061274522065727353176606959316924960091200119033211943388861933973000000000000000000000000,
  28052611590572060323802234341245397348729629656659534427775731229145939097308869018492055360867184768348500000000000000000000000,
  29404923180116560105457229981024723823758699217639843168573316974804240195378962936870423787387875688101600000000000000000000000,
  30703521840433504938126016788742907272741836588631694890026120619231040097192876359719967419733227101244470000000000000000000000,
  31946035461976706486501436898584137364454002445762763496549801617225884088921366056434016857041777201810339000000000000000000000,
  33130194385043840677068799434888785316364740878634567132589622035986700123109219549292430412191969313514297300000000000000000000,
  34253835545302215414129518261763465092506581290162913507895063561043514548179670502549609484601279394656916780000000000000000000,
  35314906424728287509063073828681215728378338478889025121768070206721271741786620792369425965441077852072849440000000000000000000,
  36311468800697784690346665077709111109638860347694365878725911472799235594212508920745349521727237125544189714000000000000000000,
  37241702286349773156894211450592030217546593698804225924702292554547582049372475627259546524518107122121717977600000000000000000,
  38103907655739800595508078365231288387681803547952362312246439669570369742642760203885868229570241076804720023647000000000000000,
  38896509947696739520475601811025168503570950479248431158880339763712837559112318489783499298177201805160263904714800000000000000,
  39618061342706143316508045959549914083051378246647050623691396058143851551483177064509879249110729452752100968660520000000000000,
  40267243807560033364941684331241292791434313181351189613020708722706326873621561308896888407145718518736460284198738000000000000,
  40842871502938861549360558563569123042637566923945663621521292780627158989646127431006518646848013561175800704786164800000000000,
  41343892949525494526883341834688026763148994457446442740415715130121644058606321688991574205745783324148854077950706927000000000,
  41769392948692853754101698020305131968715221929315948141879098012858206033431898958335384784119573421740118739260381437600000000,
  42118594254255636268945522154350063009953763355446856545220420778039299917679901267934395223814435923620295030266725025950000000,
  42390858992231594405373984339142576351130469047438564881638174690641422153639289747359085383715912545148705660008937248679300000,
  42585689826018387025763008071518358621579920693611178376357404903215859281917249067760470241896664924053408609559876909718800000,
  42702730864857222076600989664066204687312341820316403935607919351254624600004431814841189108696350281566114541268564136920547400,
  42741768313923562411454954506379349797421091771051340401428856932185614422602168252109634839501864632059475255688737872934163082,
  42702730864857222076600989664066204687312341820316403935607919351254624600004431814841189108696350281566114541268564136920547400,
  42585689826018387025763008071518358621579920693611178376357404903215859281917249067760470241896664924053408609559876909718800000,
  42390858992231594405373984339142576351130469047438564881638174690641422153639289747359085383715912545148705660008937248679300000,
  42118594254255636268945522154350063009953763355446856545220420778039299917679901267934395223814435923620295030266725025950000000,
  41769392948692853754101698020305131968715221929315948141879098012858206033431898958335384784119573421740118739260381437600000000,
  41343892949525494526883341834688026763148994457446442740415715130121644058606321688991574205745783324148854077950706927000000000,
  40842871502938861549360558563569123042637566923945663621521292780627158989646127431006518646848013561175800704786164800000000000,
  40267243807560033364941684331241292791434313181351189613020708722706326873621561308896888407145718518736460284198738000000000000,
  39618061342706143316508045959549914083051378246647050623691396058143851551483177064509879249110729452752100968660520000000000000,
  38896509947696739520475601811025168503570950479248431158880339763712837559112318489783499298177201805160263904714800000000000000,
  38103907655739800595508078365231288387681803547952362312246439669570369742642760203885868229570241076804720023647000000000000000,
  37241702286349773156894211450592030217546593698804225924702292554547582049372475627259546524518107122121717977600000000000000000,
  36311468800697784690346665077709111109638860347694365878725911472799235594212508920745349521727237125544189714000000000000000000,
  35314906424728287509063073828681215728378338478889025121768070206721271741786620792369425965441077852072849440000000000000000000,
  34253835545302215414129518261763465092506581290162913507895063561043514548179670502549609484601279394656916780000000000000000000,
  33130194385043840677068799434888785316364740878634567132589622035986700123109219549292430412191969313514297300000000000000000000,
  31946035461976706486501436898584137364454002445762763496549801617225884088921366056434016857041777201810339000000000000000000000,
  30703521840433504938126016788742907272741836588631694890026120619231040097192876359719967419733227101244470000000000000000000000,
  29404923180116560105457229981024723823758699217639843168573316974804240195378962936870423787387875688101600000000000000000000000,
  28052611590572060323802234341245397348729629656659534427775731229145939097308869018492055360867184768348500000000000000000000000,
  26649057298727482952230459318191541727061274522065727353176606959316924960091200119033211943388861933973000000000000000000000000,
  25196824137538312813332252254428839618559444690904186570743358867762213104821850375102630645942753086660000000000000000000000000,
  23698564864218974626609325271567460232793805816403443308729833715567638250203639476536704728153110500310000000000000000000000000,
  22157016317040072056769802363044422407606691966446965639426720382091562999517661482697314109104475930100000000000000000000000000,
  20574994420361169166019501756878418745997750718647149434654457816102586487945339379586659532702870559000000000000000000000000000,
  18955389048670021689735968984723719410472892819405367462141014353666275271072353415102620975764628946500000000000000000000000000,
  17301158762489083005607007648463866800056195921877740969077280696101892063067490732127321765742931051000000000000000000000000000,
  15615325433591422995533611061551586882135526670163771691706371923833750987719307472248688599716042385000000000000000000000000000,
  13900968788314650867519634424008277192728339784625352952101349951123660054497751322001988436022495600000000000000000000000000000,
  12161220929281112727763223087737737933452407903906007360730838228622159024875852277151854679230710115000000000000000000000000000,
  10399260995000532201304193864003860353893706188521475258661472605016058026642352685930518005568559650000000000000000000000000000,
  8618310479532247613911816738658220281336608084116688958675205528849591072426016843471924536072971530000000000000000000000000000,
  6821631349174792362209339370206621168592674291033491689512177513638023472478632705535919013260176572000000000000000000000000000,
  5012538571606190263812699528660827128022538991337636509036601866662956468539415361997886585860961636000000000000000000000000000,
  3194524377289034522077717087433077806705234755318464713622445597648660727669221739140173542966095381000000000000000000000000000,
  1373376462759619223984270809332925927538354704101834428204995395506231519883223679242187368401062399400000000000000000000000000]

/-- `case 74` (Util/Gauss_Legendre_Nodes_and_Weights.hpp:13926-14300), `nodes`. -/
def nodes74 : List Int := [
  -999479068780329524271044515109528496839355889552266193606806711256260308398796802940131777266643859752603601562760263463469996210,
  -997256261711016390838064096344457785885078750386873633836844386345785797901281209245168380641114038963068472001915357785038977990,
  -993261409804644972713884927841565624008488785345152326394558444141925476229622459009357783356378319091962048916756726846837899040,
  -987500726616238559607124327139481900183327480467864031075093968888237819230488337398073046738673759440389096901703336597346410200,
  -979984345431300336098804066408403892589708097829521888344953580488081106924604934150907658864428071997289640907255722854987637130,
  -970725604042518726819354559822744926138836973923285892722856256298679219748024379543573591097233198435520515908641853480904364950,
  -959740955459528912699917216038501511324960595109202743566879840969201536888381776341779234029294231076570438811477219136183137180,
  -947049926428385008272628348414517065062184107483141775344725051048481747612568290695651858301408332326711501511350836670956237130,
  -932675079462054566085601129701867580083743327587999591175906611262036042149458303426295920320620347369271273845392243476221494290,
  -916641971642906460677148258286043324813761362065893825358236534851880329391845503197186336500526003842636210379671607014510316220,
  -898979108761895795583715403801278323421553059210322594326332927124165520210697971695543932405978439067683255281381763769798678110,
  -879717894452088809228763264673946931282553536755529293975331938101725641632159128429848463407900326770081872515384484658802701270,
  -858892574265983576796486387287919192951200204948751875062789640116503472782788657463059594913614335615949727280155858996020322890,
  -836540174742815739168348017021328694799921946531149069794361694470560109732569355981098838564781255224140197915343201472893207350,
  -812700437551974373875255111282462202894771986196244029153895374681451486734947033639045375828786611025866037773607709065273216700,
  -787415748819575517819986709906400027953713205048095711509534836410682758799081635678514479690048206535296476193101590999968336290,
  -760731063758994475968622898553480945851369248155809806414595713524327871846080967679468472807623272029326700935512899934608764000,
  -732693826736880277762463403990613937762755443095040948958763822875969770971057755990561842853492931365718537802661118561638690480,
  -703353886915441859060319959214489978824382653935553403036222031905445018863038017298355218257150897304641559452323955102675726110,
  -672763409620247602718505466750305318294137735436361867616940526793754793974595337832840130104915796123175865590391520301276228160,
  -640976783590692388595341945280529946027868340545275104028556440619196355304022911809460026816736729598115178670972757488516946540,
  -608050524277779825525162905470918354126803959723200660471257308904769887394505289868515747890103354637602591038800089767927528460,
  -574043173360994152501892620261297098889453373047721228824334098894043696195018159457811357574949336478482775724469249653764875870,
  -539015194662817083240727032646304843723706487596167642571848271710467181544275806803804979316410681509877688792479009886572858300,
  -503028866645885165914073043877817664410055450351572075378485828532714812737387384232696473945168769859932265278481075138178299460,
  -466148171683881183422059831975418354920715274110522696333338126860530990377586073409947107109097688106472105229472562953957785040,
  -428438682303003279375829294020234725948163034514462172179128645515600427720526228074810183958257247555354589008029552865093413870,
  -389967444596250750571071929966565830249195130681263345305601833335054563306918403543907842336171616821215606990194287933245505010,
  -350802859017798047492534968828470461890008469529105280383482004201612115385620191171654732521859937439130026612802946560268900960,
  -311014558769390637049757721609300928309101820550799295543787889367582013920603640137599064805856468954489190460837824578344317620,
  -270673285994980405537672241270283096176167016721643492968204621307634192724576136262578307690758540197514766740498269417506318420,
  -229850766003717031018169433225752628557662173781728275130905988140571579963631292095227454484807126530353729749006146629695889930,
  -188619579744918578310721067679934081189582783312589715250051518100721197858901774100493227580356043055312672969677737996863387000,
  -147053034761753411728851356888524725001089401112616444823365495599029334075477152728547500654806067457184171370888428368091637310,
  -105225034853070971863988799247950546214578276691474521977044149671109856007570775610352282414961245628027427323711451251479110420,
  -63209948675116291895726601776621100409801957097361438170333878452745825116905497737603767674074059296227697608775970258957877557,
  -21082477516748304447535218514047431626007617275757426313104532047931432909524399045459832714805063863227980225374740017089412923,
  21082477516748304447535218514047431626007617275757426313104532047931432909524399045459832714805063863227980225374740017089412923,
  63209948675116291895726601776621100409801957097361438170333878452745825116905497737603767674074059296227697608775970258957877557,
  105225034853070971863988799247950546214578276691474521977044149671109856007570775610352282414961245628027427323711451251479110420,
  147053034761753411728851356888524725001089401112616444823365495599029334075477152728547500654806067457184171370888428368091637310,
  188619579744918578310721067679934081189582783312589715250051518100721197858901774100493227580356043055312672969677737996863387000,
  229850766003717031018169433225752628557662173781728275130905988140571579963631292095227454484807126530353729749006146629695889930,
  270673285994980405537672241270283096176167016721643492968204621307634192724576136262578307690758540197514766740498269417506318420,
  311014558769390637049757721609300928309101820550799295543787889367582013920603640137599064805856468954489190460837824578344317620,
  350802859017798047492534968828470461890008469529105280383482004201612115385620191171654732521859937439130026612802946560268900960,
  389967444596250750571071929966565830249195130681263345305601833335054563306918403543907842336171616821215606990194287933245505010,
  428438682303003279375829294020234725948163034514462172179128645515600427720526228074810183958257247555354589008029552865093413870,
  466148171683881183422059831975418354920715274110522696333338126860530990377586073409947107109097688106472105229472562953957785040,
  503028866645885165914073043877817664410055450351572075378485828532714812737387384232696473945168769859932265278481075138178299460,
  539015194662817083240727032646304843723706487596167642571848271710467181544275806803804979316410681509877688792479009886572858300,
  574043173360994152501892620261297098889453373047721228824334098894043696195018159457811357574949336478482775724469249653764875870,
  608050524277779825525162905470918354126803959723200660471257308904769887394505289868515747890103354637602591038800089767927528460,
  640976783590692388595341945280529946027868340545275104028556440619196355304022911809460026816736729598115178670972757488516946540,
  672763409620247602718505466750305318294137735436361867616940526793754793974595337832840130104915796123175865590391520301276228160,
  703353886915441859060319959214489978824382653935553403036222031905445018863038017298355218257150897304641559452323955102675726110,
  732693826736880277762463403990613937762755443095040948958763822875969770971057755990561842853492931365718537802661118561638690480,
  760731063758994475968622898553480945851369248155809806414595713524327871846080967679468472807623272029326700935512899934608764000,
  787415748819575517819986709906400027953713205048095711509534836410682758799081635678514479690048206535296476193101590999968336290,
  812700437551974373875255111282462202894771986196244029153895374681451486734947033639045375828786611025866037773607709065273216700,
  836540174742815739168348017021328694799921946531149069794361694470560109732569355981098838564781255224140197915343201472893207350,
  858892574265983576796486387287919192951200204948751875062789640116503472782788657463059594913614335615949727280155858996020322890,
  879717894452088809228763264673946931282553536755529293975331938101725641632159128429848463407900326770081872515384484658802701270,
  898979108761895795583715403801278323421553059210322594326332927124165520210697971695543932405978439067683255281381763769798678110,
  916641971642906460677148258286043324813761362065893825358236534851880329391845503197186336500526003842636210379671607014510316220,
  932675079462054566085601129701867580083743327587999591175906611262036042149458303426295920320620347369271273845392243476221494290,
  947049926428385008272628348414517065062184107483141775344725051048481747612568290695651858301408332326711501511350836670956237130,
  959740955459528912699917216038501511324960595109202743566879840969201536888381776341779234029294231076570438811477219136183137180,
  970725604042518726819354559822744926138836973923285892722856256298679219748024379543573591097233198435520515908641853480904364950,
  979984345431300336098804066408403892589708097829521888344953580488081106924604934150907658864428071997289640907255722854987637130,
  987500726616238559607124327139481900183327480467864031075093968888237819230488337398073046738673759440389096901703336597346410200,
  993261409804644972713884927841565624008488785345152326394558444141925476229622459009357783356378319091962048916756726846837899040,
  997256261711016390838064096344457785885078750386873633836844386345785797901281209245168380641114038963068472001915357785038977990,
  999479068780329524271044515109528496839355889552266193606806711256260308398796802940131777266643859752603601562760263463469996210]

/-- `case 74` (Util/Gauss_Legendre_Nodes_and_Weights.hpp:13926-14300), `weights`. -/
def weights74 : List Nat := [
  1336761650069883550328749136467985889566073505066714632582794350939033262982700966458602093463844184500000000000000000000000000,
  3109420149896754678673366121329184990296914385612943498817865562084257162659472806011970157581903195000000000000000000000000000,
  4879179758594144584289811767041552977526932324140166046106654256229546635334119924701925246850440780000000000000000000000000000,
  6640492909114357634761248707525736751652560173537436219359127959644634341255527867843769097815502010000000000000000000000000000,
  8390045433971397064088340850829224408118569659442493084412210981995067521548140479475432815048354160000000000000000000000000000,
  10124694538287305421119936018076854222661784498637996502492133100091241803398190257940134782890448700000000000000000000000000000,
  11841347547499667323168474119335361518989967285321696812885339596681777722017532219376168600904305530000000000000000000000000000,
  13536949411787494341053351354474172640289041111851204013078501053014116689927351730059892329186494590000000000000000000000000000,
  15208484243401234808874740727539636230130972161433684734624669088317132174338407168243083823769500725000000000000000000000000000,
  16852979582024853584847472766436232352476980944492120434159254967274082843593730240874489763009617499000000000000000000000000000,
  18467511308979879782853729659257732660090910591771543827068091031813498095545073875958255935719539089000000000000000000000000000,
  20049208702794944252734655470476894780293801544811849618319204330065267530053948143036735563477895426300000000000000000000000000,
  21595259481675888969699547322061522465979647965096351131740010047098214491018378296744138145577430237400000000000000000000000000,
  23102914774915823030932626889174504040515804783688973852137531686726481487535630516876017572946132184500000000000000000000000000,
  24569493995942767245649205783226228747582399643084055906518960590546926511937622062875123911775549929020000000000000000000000000,
  25992389600723787866773546043617004408537729247787499324080120805074730930651194585512128651470378776806000000000000000000000000,
  27369071719679352302437772712460691267677977570638733347027742539984021733489755958328365512120802145854000000000000000000000000,
  28697092653269875342095106448663331567110967800465260023530814112276433325393277969403959623351258483067500000000000000000000000,
  29974091222461187339964777100379965347067901343950124894017382368448082795700255784221349869588774085341350000000000000000000000,
  31197796965915426033372351105608368614894023697643748578091581010684680295854010631523627954369629015038080000000000000000000000,
  32366034176216999525280186490136756342176968993407223126856984804241076149607406500753126664916463108736454000000000000000000000,
  33476725767828766263722474021667068677963828197905445649874863989686713208240979006896974105780742581654414400000000000000000000,
  34527896969826461003333973798606025414519382380252222298525137338274709336925780318723303422081427016812395570000000000000000000,
  35517678836800959925853869453857900416207372009420684937083906053446174481042757473140337051216422529772088731000000000000000000,
  36444311571658564481810907516280945850703250268034666046889101267137868981162523446707589136958965808852723587500000000000000000,
  37306147654394155733706685625695217112847604399813298728986471887937761653597285845843175465759273835684740937700000000000000000,
  38101654771263248896351656658634981292588053400479576526155515480374656070884334759456340298420537141818630876036000000000000000,
  38829418539137707758082272911882110216078825620394835292751343110800644486013615210823264780938194176994786678122100000000000000,
  39488145020196468323632720490340092203801130268950957751310501308587181250506177594924857064845234500394693863801140000000000000,
  40076663022476966759151171923376967342281588277895525662666702754153748583035206241486469535086722025494451590904679300000000000,
  40593926182194728058076819827908302413361146052029721298611584458555728042444443734511983193373159462373736365445924990000000000,
  41039014824127266847418809816516900770542765157334091737780116293730098883133593072382279216151845147842843967785991161000000000,
  41411137596753510820068070019881501815135703175102502355440496145794350132556802215944994132773385156283605888079296813750000000,
  41709632879240754378709933608623490234421021311963594005650263909936678401772314169975497989713651661764712264880728897428000000,
  41933969957777021469955207839886982381906393862486749444595874725877719690335335711966727617646989913835986974498828698752240000,
  42083749969156972474895765002382886286675062222788294044335578768674341469730843738787135136917856181230625178964322827623318000,
  42158706609943422122230664890339685347328944163266014611435568263801321824776279472210773736501329008811759549617452720576302350,
  42158706609943422122230664890339685347328944163266014611435568263801321824776279472210773736501329008811759549617452720576302350,
  42083749969156972474895765002382886286675062222788294044335578768674341469730843738787135136917856181230625178964322827623318000,
  41933969957777021469955207839886982381906393862486749444595874725877719690335335711966727617646989913835986974498828698752240000,
  41709632879240754378709933608623490234421021311963594005650263909936678401772314169975497989713651661764712264880728897428000000,
  41411137596753510820068070019881501815135703175102502355440496145794350132556802215944994132773385156283605888079296813750000000,
  41039014824127266847418809816516900770542765157334091737780116293730098883133593072382279216151845147842843967785991161000000000,
  40593926182194728058076819827908302413361146052029721298611584458555728042444443734511983193373159462373736365445924990000000000,
  40076663022476966759151171923376967342281588277895525662666702754153748583035206241486469535086722025494451590904679300000000000,
  39488145020196468323632720490340092203801130268950957751310501308587181250506177594924857064845234500394693863801140000000000000,
  38829418539137707758082272911882110216078825620394835292751343110800644486013615210823264780938194176994786678122100000000000000,
  38101654771263248896351656658634981292588053400479576526155515480374656070884334759456340298420537141818630876036000000000000000,
  37306147654394155733706685625695217112847604399813298728986471887937761653597285845843175465759273835684740937700000000000000000,
  36444311571658564481810907516280945850703250268034666046889101267137868981162523446707589136958965808852723587500000000000000000,
  35517678836800959925853869453857900416207372009420684937083906053446174481042757473140337051216422529772088731000000000000000000,
  34527896969826461003333973798606025414519382380252222298525137338274709336925780318723303422081427016812395570000000000000000000,
  33476725767828766263722474021667068677963828197905445649874863989686713208240979006896974105780742581654414400000000000000000000,
  32366034176216999525280186490136756342176968993407223126856984804241076149607406500753126664916463108736454000000000000000000000,
  31197796965915426033372351105608368614894023697643748578091581010684680295854010631523627954369629015038080000000000000000000000,
  29974091222461187339964777100379965347067901343950124894017382368448082795700255784221349869588774085341350000000000000000000000,
  28697092653269875342095106448663331567110967800465260023530814112276433325393277969403959623351258483067500000000000000000000000,
  27369071719679352302437772712460691267677977570638733347027742539984021733489755958328365512120802145854000000000000000000000000,
  25992389600723787866773546043617004408537729247787499324080120805074730930651194585512128651470378776806000000000000000000000000,
  24569493995942767245649205783226228747582399643084055906518960590546926511937622062875123911775549929020000000000000000000000000,
  23102914774915823030932626889174504040515804783688973852137531686726481487535630516876017572946132184500000000000000000000000000,
  21595259481675888969699547322061522465979647965096351131740010047098214491018378296744138145577430237400000000000000000000000000,
  20049208702794944252734655470476894780293801544811849618319204330065267530053948143036735563477895426300000000000000000000000000,
  18467511308979879782853729659257732660090910591771543827068091031813498095545073875958255935719539089000000000000000000000000000,
  16852979582024853584847472766436232352476980944492120434159254967274082843593730240874489763009617499000000000000000000000000000,
  15208484243401234808874740727539636230130972161433684734624669088317132174338407168243083823769500725000000000000000000000000000,
  13536949411787494341053351354474172640289041111851204013078501053014116689927351730059892329186494590000000000000000000000000000,
  11841347547499667323168474119335361518989967285321696812885339596681777722017532219376168600904305530000000000000000000000000000,
  10124694538287305421119936018076854222661784498637996502492133100091241803398190257940134782890448700000000000000000000000000000,
  8390045433971397064088340850829224408118569659442493084412210981995067521548140479475432815048354160000000000000000000000000000,
  6640492909114357634761248707525736751652560173537436219359127959644634341255527867843769097815502010000000000000000000000000000,
  4879179758594144584289811767041552977526932324140166046106654256229546635334119924701925246850440780000000000000000000000000000,
  3109420149896754678673366121329184990296914385612943498817865562084257162659472806011970157581903195000000000000000000000000000,
  1336761650069883550328749136467985889566073505066714632582794350939033262982700966458602093463844184500000000000000000000000000]

/-- `case 75` (Util/Gauss_Legendre_Nodes_and_Weights.hpp:14302-14680), `nodes`. -/
def nodes75 : List Int := [
  -999492775536035456483467194356316110250299884312792209264147394328445229336022192418753630103247107275598502897331091480436517180,
  -997328428962231803309065756743910551040037202827069497951437802141660869575475496803457265189810049929010755224927625696250457000,
  -993438536578892704377047197845772621919036684406806904515946348771257826462822656893541620159658818541232073129447506916651609700,
  -987828966767524520141266680075041950074024589391140505062798283729473249779950531954428895922433803134467829847069763454435415050,
  -980509324597416605771693123735209141644903571089240757526936997152009371092556151785820130535998545854173538807000188473718325850,
  -971492256343063823363813797467682014399763130510318073907101279009035411788195316471636591388531733526713874239546594881006193520,
  -960793363741892314155448000612802246234013218979725977866374819900069468010606000471002720959382272821150611927739548973713339390,
  -948431165079287377921919847246826407740084598911714361017270608249485319318840544158440908454220763574396975628664997658498701760,
  -934427059964107156836194126253732091182474009176760107999930068597080649616620044524998583416570659903486896587057605554163216200,
  -918805291228393991271239495293491188080792307836248189562058224295008277853997731265536004346730595263391407229270992352958892550,
  -901592902548446334093964271936135267281053303678270812891276927611097634052065994875725484834062605901548356210059329578343361150,
  -882819691447895542160092313543597413877400561973605714429022090841483321940455359469298427544794512324479646672147554125497679050,
  -862518157626883425461262345923362543368251560794404341569217787139497593584954513351928591421865862441953055726540112477050350660,
  -840723446654958050097011601406035732595622393933468577127711854266985784315687594341247306658544868341762553779530206394481064350,
  -817473289103541314843395271204616439709057353492537270447927769880846496467677601769762521628882261806619356618452972974440938680,
  -792807935213563510360413945679631767568587189433744682402147580941724239892111008146930059797332982397727446439847272330869799620,
  -766770085206641925524094754183636557141797532497888192685423313330705215943143865866722838052439298214951604612199642262261190990,
  -739404815358032526496513566777360852771864612064262258682769261717172005964968234135106454072508506169784539982224049440435415940,
  -710759499958041126769559334273221374419104300772711137799267727182079465429142476472036652945305929320158015129306248605349301770,
  -680883729296269598044383905502729217711884680038381342062184182336389469770646505304549033719054793677600678658464677474684228320,
  -649829223810262232586886934795152547803058934979527409613862453225326247443343326890608321412458976865780323174349645800999281140,
  -617649744546925964450185877592788716818507533086368454265956846321930516341386906256628099428677592679197694159916576386750642990,
  -584401000091577880319607311343395110299474797186950564063719026261707641692157205139588084010100845266349333001542101536773740870,
  -550140550125645551503014936343069526096997643842164296316285308965367703568812901585262538400783131166340531436806676719370664750,
  -514927705779916640527991952384349715958434868921115274609546879412154464960056329784820789871937008580670232161367466811317902050,
  -478823426955803157015809075989577164271305738547906826781772685279430665730821722227492440384547318776298641499943498061379450140,
  -441890216792348266537335463881096947932942909249751580047869722774458919790565363352949642367772563798951045445959135001176622490,
  -404192013461653613190806873328619079553135555844350544235563844378927848025655627277138592664552517461966782640771875565368153950,
  -365794079480035925326018020903382615310723042819831288941348468086431620726292464633478807837579524612570354203440535260667538290,
  -326762888726526302358399974760230615171354265087882847945585782002349634106068310097409312936932746231935382623986979374672201210,
  -287166011364297246942701665150081638820495431103355381224178024432690722164609009019326331294235480652343603333414546655650689320,
  -247071996864234756904240039398480109280954088729370631839705909592499926181343367032747752208264897874463756588707585423421375970,
  -206550255333159607114474453589905277385332826813754947534759647879933548049390261630096855939014418579479804637064447737573085820,
  -165670937352137818385949520777985796207833156131773608010006247843908996710238696715511449100624022378502850602434024661139715060,
  -124504812532900261625084491739368882801750168150598650515794044301720074628824174885604619871159810253472699283642186304648968690,
  -83123147002610991697497087658772789418633819213960889879766603674426507582117324935850789657367026456459550343968829759638799682,
  -41597580029079455974891331228001555334722365353065989475664088927211716452917915160262821643023298814286730955125198139878149562,
  0,
  41597580029079455974891331228001555334722365353065989475664088927211716452917915160262821643023298814286730955125198139878149562,
  83123147002610991697497087658772789418633819213960889879766603674426507582117324935850789657367026456459550343968829759638799682,
  124504812532900261625084491739368882801750168150598650515794044301720074628824174885604619871159810253472699283642186304648968690,
  165670937352137818385949520777985796207833156131773608010006247843908996710238696715511449100624022378502850602434024661139715060,
  206550255333159607114474453589905277385332826813754947534759647879933548049390261630096855939014418579479804637064447737573085820,
  247071996864234756904240039398480109280954088729370631839705909592499926181343367032747752208264897874463756588707585423421375970,
  287166011364297246942701665150081638820495431103355381224178024432690722164609009019326331294235480652343603333414546655650689320,
  326762888726526302358399974760230615171354265087882847945585782002349634106068310097409312936932746231935382623986979374672201210,
  365794079480035925326018020903382615310723042819831288941348468086431620726292464633478807837579524612570354203440535260667538290,
  404192013461653613190806873328619079553135555844350544235563844378927848025655627277138592664552517461966782640771875565368153950,
  441890216792348266537335463881096947932942909249751580047869722774458919790565363352949642367772563798951045445959135001176622490,
  478823426955803157015809075989577164271305738547906826781772685279430665730821722227492440384547318776298641499943498061379450140,
  514927705779916640527991952384349715958434868921115274609546879412154464960056329784820789871937008580670232161367466811317902050,
  550140550125645551503014936343069526096997643842164296316285308965367703568812901585262538400783131166340531436806676719370664750,
  584401000091577880319607311343395110299474797186950564063719026261707641692157205139588084010100845266349333001542101536773740870,
  617649744546925964450185877592788716818507533086368454265956846321930516341386906256628099428677592679197694159916576386750642990,
  649829223810262232586886934795152547803058934979527409613862453225326247443343326890608321412458976865780323174349645800999281140,
  680883729296269598044383905502729217711884680038381342062184182336389469770646505304549033719054793677600678658464677474684228320,
  710759499958041126769559334273221374419104300772711137799267727182079465429142476472036652945305929320158015129306248605349301770,
  739404815358032526496513566777360852771864612064262258682769261717172005964968234135106454072508506169784539982224049440435415940,
  766770085206641925524094754183636557141797532497888192685423313330705215943143865866722838052439298214951604612199642262261190990,
  792807935213563510360413945679631767568587189433744682402147580941724239892111008146930059797332982397727446439847272330869799620,
  817473289103541314843395271204616439709057353492537270447927769880846496467677601769762521628882261806619356618452972974440938680,
  840723446654958050097011601406035732595622393933468577127711854266985784315687594341247306658544868341762553779530206394481064350,
  862518157626883425461262345923362543368251560794404341569217787139497593584954513351928591421865862441953055726540112477050350660,
  882819691447895542160092313543597413877400561973605714429022090841483321940455359469298427544794512324479646672147554125497679050,
  901592902548446334093964271936135267281053303678270812891276927611097634052065994875725484834062605901548356210059329578343361150,
  918805291228393991271239495293491188080792307836248189562058224295008277853997731265536004346730595263391407229270992352958892550,
  934427059964107156836194126253732091182474009176760107999930068597080649616620044524998583416570659903486896587057605554163216200,
  948431165079287377921919847246826407740084598911714361017270608249485319318840544158440908454220763574396975628664997658498701760,
  960793363741892314155448000612802246234013218979725977866374819900069468010606000471002720959382272821150611927739548973713339390,
  971492256343063823363813797467682014399763130510318073907101279009035411788195316471636591388531733526713874239546594881006193520,
  980509324597416605771693123735209141644903571089240757526936997152009371092556151785820130535998545854173538807000188473718325850,
  987828966767524520141266680075041950074024589391140505062798283729473249779950531954428895922433803134467829847069763454435415050,
  993438536578892704377047197845772621919036684406806904515946348771257826462822656893541620159658818541232073129447506916651609700,
  997328428962231803309065756743910551040037202827069497951437802141660869575475496803457265189810049929010755224927625696250457000,
  999492775536035456483467194356316110250299884312792209264147394328445229336022192418753630103247107275598502897331091480436517180]

/-- `case 75` (Util/Gauss_Legendre_Nodes_and_Weights.hpp:14302-14680), `weights`. -/
def weights75 : List Nat := [
  1301591717375855993898225582457266399117800941445766839667669272509044858528611627746281602158541827000000000000000000000000000,
  3027671014606041291226445788162300949610961211803575192906469820176179885563150757076153338115990570000000000000000000000000000,
  4751069185015273965898756475154662994950210050120247429695487222525382271756112606477467830320751300000000000000000000000000000,
  6466464907037538401963192073597327871580160999902224567858011265652390864734399694589418376107765380000000000000000000000000000,
  8170710707327826403717859178122832086281529074421802271978495392913419610259226407297701691304930700000000000000000000000000000,
  9860824916114018392051749835640766864925107295241426977693455976664952112794279817880371490755248130000000000000000000000000000,
  11533873328304495966813676187565432174976489367166617314677699765103353125694506277777543185810542200000000000000000000000000000,
  13186956762824802119613874197023079882648054608558722162698641934424910883381061066597957537731360540000000000000000000000000000,
  14817212289814468520137735549090900313200779909659365427044633390177353992538313465647619066334526930000000000000000000000000000,
  16421817119024640043599306078756381292419865346185228680384505430766570140005182800269726312639713530000000000000000000000000000,
  17997993125645050637945674480831206386774495078233242050135532833522225715562438100341060445085709777000000000000000000000000000,
  19543011520127889379570920253555125366468471919349823572098907783824734477867334512116389085915082870000000000000000000000000000,
  21054197512282842236445942608395010917322720982053146576805309269275532032446207266443069943839205219900000000000000000000000000,
  22528934913865776450546379982564421206558246695543665207836664302648006859289200432133937812306739987900000000000000000000000000,
  23964670653716959174765448878865756859459272450445384473221067838599578356717631316580711116953997100580000000000000000000000000,
  25358919190216379094208439591330900564990929681195075412761130306372900155955821946674328688396711097210000000000000000000000000,
  26709266810120851772354083068715045160280603601455276853611528916148716609498952113094238293664967710415000000000000000000000000,
  28013375804780540825259014538106151542498429199056221386499443634675207029385225029478288205283364978323000000000000000000000000,
  29268988515725986805033406483984651727300777419174274944973094536364015781331458034249960555409223630897200000000000000000000000,
  30473931242214539203137621941768248091212611440664966164787326728705454925770897932815273789503592039503520000000000000000000000,
  31626118003749648056032391809391844317964369299397220699115123153777262084925814062036927001107294034201049000000000000000000000,
  32723554150934220521522757309968107124855239366863326067803483846604858139716558662068662825969682199304017700000000000000000000,
  33764339818334092646955687040362113349060382394258508034822993158840816828124761497567060679090771279175967300000000000000000000,
  34746673213330406535098538697209498613929767474367893475180912088011057106125387657255788279575759412167537530000000000000000000,
  35668853735240453089118380403415218524163021300509341869693477988764006649385303973700673471388302410641210551000000000000000000,
  36529284919290339006851097243541711428241351474581493798497390987838155812914784691843177077280045722332814875000000000000000000,
  37326477200332090167306392614826551770392158062757287202465463843676618096858823473464371796835559153690076007644000000000000000,
  38059050491513603135630900037877889990427935323002730468159769809523311219025930225395670520131253478643639703878700000000000000,
  38725736573432575841466451005175604427753683954327557334998617975719244464404442114382799262869297031652790315764490000000000000,
  39325381289635162520767468982589483031887500704777417842741642541572782020117489179714782422025666217988892261407603000000000000,
  39856946544656352575965304840194506136017118584534711037877295314242191604725896959831831883599446116788644678276336100000000000,
  40319512101141577558174368373926889063031556434928942971350952431482771312867401666731797840292946017942293068796927293000000000,
  40712277172937330298757820608551861044002927602636186360167399536861147919596417765028299867676027871959810870023679967100000000,
  41034561811392106676222517310215295706430290093556096473147447761380281397492752830102145403409022236973570406848827267030000000,
  41285808082467189083460872530655864418512017410537104771706050051341491502524406253525413872210555644429418277835867126786800000,
  41465581032619092135248335662635858895398012326418618703678609637962556249817205470159778910997063908675683232262775164987770000,
  41573569441781278782999422233380160661739337717467096933416123534849435717570436903143110706248923035581072217036997965649617000,
  41609586362141409380467081044788145687231626406804824895684341433004164369452350817520419623308837462250255377804716194166662585,
  41573569441781278782999422233380160661739337717467096933416123534849435717570436903143110706248923035581072217036997965649617000,
  41465581032619092135248335662635858895398012326418618703678609637962556249817205470159778910997063908675683232262775164987770000,
  41285808082467189083460872530655864418512017410537104771706050051341491502524406253525413872210555644429418277835867126786800000,
  41034561811392106676222517310215295706430290093556096473147447761380281397492752830102145403409022236973570406848827267030000000,
  40712277172937330298757820608551861044002927602636186360167399536861147919596417765028299867676027871959810870023679967100000000,
  40319512101141577558174368373926889063031556434928942971350952431482771312867401666731797840292946017942293068796927293000000000,
  39856946544656352575965304840194506136017118584534711037877295314242191604725896959831831883599446116788644678276336100000000000,
  39325381289635162520767468982589483031887500704777417842741642541572782020117489179714782422025666217988892261407603000000000000,
  38725736573432575841466451005175604427753683954327557334998617975719244464404442114382799262869297031652790315764490000000000000,
  38059050491513603135630900037877889990427935323002730468159769809523311219025930225395670520131253478643639703878700000000000000,
  37326477200332090167306392614826551770392158062757287202465463843676618096858823473464371796835559153690076007644000000000000000,
  36529284919290339006851097243541711428241351474581493798497390987838155812914784691843177077280045722332814875000000000000000000,
  35668853735240453089118380403415218524163021300509341869693477988764006649385303973700673471388302410641210551000000000000000000,
  34746673213330406535098538697209498613929767474367893475180912088011057106125387657255788279575759412167537530000000000000000000,
  33764339818334092646955687040362113349060382394258508034822993158840816828124761497567060679090771279175967300000000000000000000,
  32723554150934220521522757309968107124855239366863326067803483846604858139716558662068662825969682199304017700000000000000000000,
  31626118003749648056032391809391844317964369299397220699115123153777262084925814062036927001107294034201049000000000000000000000,
  30473931242214539203137621941768248091212611440664966164787326728705454925770897932815273789503592039503520000000000000000000000,
  29268988515725986805033406483984651727300777419174274944973094536364015781331458034249960555409223630897200000000000000000000000,
  28013375804780540825259014538106151542498429199056221386499443634675207029385225029478288205283364978323000000000000000000000000,
  26709266810120851772354083068715045160280603601455276853611528916148716609498952113094238293664967710415000000000000000000000000,
  25358919190216379094208439591330900564990929681195075412761130306372900155955821946674328688396711097210000000000000000000000000,
  23964670653716959174765448878865756859459272450445384473221067838599578356717631316580711116953997100580000000000000000000000000,
  22528934913865776450546379982564421206558246695543665207836664302648006859289200432133937812306739987900000000000000000000000000,
  21054197512282842236445942608395010917322720982053146576805309269275532032446207266443069943839205219900000000000000000000000000,
  19543011520127889379570920253555125366468471919349823572098907783824734477867334512116389085915082870000000000000000000000000000,
  17997993125645050637945674480831206386774495078233242050135532833522225715562438100341060445085709777000000000000000000000000000,
  16421817119024640043599306078756381292419865346185228680384505430766570140005182800269726312639713530000000000000000000000000000,
  14817212289814468520137735549090900313200779909659365427044633390177353992538313465647619066334526930000000000000000000000000000,
  13186956762824802119613874197023079882648054608558722162698641934424910883381061066597957537731360540000000000000000000000000000,
  11533873328304495966813676187565432174976489367166617314677699765103353125694506277777543185810542200000000000000000000000000000,
  9860824916114018392051749835640766864925107295241426977693455976664952112794279817880371490755248130000000000000000000000000000,
  8170710707327826403717859178122832086281529074421802271978495392913419610259226407297701691304930700000000000000000000000000000,
  6466464907037538401963192073597327871580160999902224567858011265652390864734399694589418376107765380000000000000000000000000000,
  4751069185015273965898756475154662994950210050120247429695487222525382271756112606477467830320751300000000000000000000000000000,
  3027671014606041291226445788162300949610961211803575192906469820176179885563150757076153338115990570000000000000000000000000000,
  1301591717375855993898225582457266399117800941445766839667669272509044858528611627746281602158541827000000000000000000000000000]

/-- `case 76` (Util/Gauss_Legendre_Nodes_and_Weights.hpp:14682-15066), `nodes`. -/
def nodes76 : List Int := [
  -999505948362153078106201749533763365820349911386739784387811867049786364285083447819104241304867566023806387887863353168495024120,
  -997397786355355436691434380834201280407923935468292963150564161562789091097584914241841070171927254100764398947662712738568757000,
  -993608772723526984616191431928802504614655294878504568962874668270082862612053829466737246481868938006671100401047381044838638870,
  -988144453359837438498644758224228630907922509036090642604610771556757624730942324075256937244892647281500513003255736450242205900,
  -981013938975655895251838113832965029084639862956975202011953075259051405361322021999805543696238302900293583851235078089546084420,
  -972229228520376904478080189594675597352940476861113906842060476808076129336669935338815741333332761632686875383110043606292978210,
  -961805126758767827168032116152345766339651490447105223717348271004755553703812736409284998077066924890243811345433546511133853950,
  -949759207710896385084895436968691365458790633646527638791036125227505458303426739734755863843523137713772133971021392579177176360,
  -936111781934810796263222998921178227050223945244010684542329781301750299055404265900769699657977589934329944459434356401642866020,
  -920885861252150118491581425070997810154222685319538662451670576238725534470411549358886901563950203272011669682146243682068154200,
  -904107119545566828544425930704285315717250054185022641803286239943192707773300226547763428320110166980011174629455028376702886590,
  -885803849292082787214910202536350988146495925972319001420244891045462688116548108388140135316409863683883142274129482295763868250,
  -866006913771981955227867736059168542435332425845288378139387361988878450894180296309085281627042601804487446420964520760150893080,
  -844749694983342394010890285541863952058162025568659495979750475454599836195227648392340405910901972035076490274241956448126151540,
  -822068037328974613477770710261231471791498475684127841745179635845564643065818546216675047008977519942336117059617082633387496280,
  -798000187161200169752810467502382170540680935996660133982679991991280709008051669985030277898593139677005998193816373755086792430,
  -772586728281809761297673467986903007856868143053037323529901438757856603783339550225309232166877207760696477168123867597996362630,
  -745870513503610443148638762053599450329715440402735818533014162972141399496067835696677812779091740349499354647050403667861167500,
  -717896592387703639373005509089984641787404712858834161107643061004203805484674992848406285436189840419357010613987388127399080430,
  -688712135277640596996524675275844280901584500331610211484893189197554966916640482732345124081423074299092902218398490491081167480,
  -658366353758142630275232660208093750481819563159122420609473462345549816268370629422170092761301295124807958747121550801574106340,
  -626910417672266559145452115896092939526952486924531595931231024039836499233881174935709895113739639569987236051672595503713779220,
  -594397368836792918151506290349079075249729058141025773110474362090997624781488855757267875204143324285281594869403722757521599160,
  -560882031601237478999161665630557768399289240356380985812950148850659540656208298769660342870791430961732625956239945075927741480,
  -526420920401242590955307468941036137619225030623547479438159836998475498143962303328583921279017524247322405737927173237942045000,
  -491072144462193864861745245066629254511595457424088085089330718536744958205510422426866042386457615825164424558574301077724016720,
  -454895309813726339433840701780305028293186065703402905631621056529957223031991943088377693362992451744143704536821230127894071250,
  -417951418780327298795659503678897452161640283675748189155235433049821382565201712557881782223199691052911762982516001212153329640,
  -380302767117504443467504475804714586831428445447703656207820479676442519432128144075286049212857432517678219872095315788387974970,
  -342012838966962023931201208974228126242591256717043842771006238090288464966504110863047992187947159517430585388079706978443146290,
  -303146199807907778099415177581090272860183989525931092093501165312526180825613218673463407670316464815417807050462984496207049000,
  -263768387584994276479405483319366151052479897420939675729560379408692662452343721766089643920071263493167556927306884074899095630,
  -223945802196474133762637597327081193799120154519526252162451583277021698519941133944360430862126144789878679985412957736967340290,
  -183745593528914477419244431135180534211878148923124322483296147039776793704887377067108886977959605386928529369221885617770836080,
  -143235548227267521445508091942340103941666957520586372519549413206730761883048163351472078136487210780444904596613262823010558480,
  -102483975391227018300050937253807928275485073591744826406836163878297890683649080983181646237272199723633359918894708331795596380,
  -61559591390611208428667745308828595331942324574725727819227358367026247079379301261552206656510392009983775122284555150482035916,
  -20531403993998635501746758209957861724657447603491918494949533544917736283260306890657860122648200170368864418179684864035828693,
  20531403993998635501746758209957861724657447603491918494949533544917736283260306890657860122648200170368864418179684864035828693,
  61559591390611208428667745308828595331942324574725727819227358367026247079379301261552206656510392009983775122284555150482035916,
  102483975391227018300050937253807928275485073591744826406836163878297890683649080983181646237272199723633359918894708331795596380,
  143235548227267521445508091942340103941666957520586372519549413206730761883048163351472078136487210780444904596613262823010558480,
  183745593528914477419244431135180534211878148923124322483296147039776793704887377067108886977959605386928529369221885617770836080,
  223945802196474133762637597327081193799120154519526252162451583277021698519941133944360430862126144789878679985412957736967340290,
  263768387584994276479405483319366151052479897420939675729560379408692662452343721766089643920071263493167556927306884074899095630,
  303146199807907778099415177581090272860183989525931092093501165312526180825613218673463407670316464815417807050462984496207049000,
  342012838966962023931201208974228126242591256717043842771006238090288464966504110863047992187947159517430585388079706978443146290,
  380302767117504443467504475804714586831428445447703656207820479676442519432128144075286049212857432517678219872095315788387974970,
  417951418780327298795659503678897452161640283675748189155235433049821382565201712557881782223199691052911762982516001212153329640,
  454895309813726339433840701780305028293186065703402905631621056529957223031991943088377693362992451744143704536821230127894071250,
  491072144462193864861745245066629254511595457424088085089330718536744958205510422426866042386457615825164424558574301077724016720,
  526420920401242590955307468941036137619225030623547479438159836998475498143962303328583921279017524247322405737927173237942045000,
  560882031601237478999161665630557768399289240356380985812950148850659540656208298769660342870791430961732625956239945075927741480,
  594397368836792918151506290349079075249729058141025773110474362090997624781488855757267875204143324285281594869403722757521599160,
  626910417672266559145452115896092939526952486924531595931231024039836499233881174935709895113739639569987236051672595503713779220,
  658366353758142630275232660208093750481819563159122420609473462345549816268370629422170092761301295124807958747121550801574106340,
  688712135277640596996524675275844280901584500331610211484893189197554966916640482732345124081423074299092902218398490491081167480,
  717896592387703639373005509089984641787404712858834161107643061004203805484674992848406285436189840419357010613987388127399080430,
  745870513503610443148638762053599450329715440402735818533014162972141399496067835696677812779091740349499354647050403667861167500,
  772586728281809761297673467986903007856868143053037323529901438757856603783339550225309232166877207760696477168123867597996362630,
  798000187161200169752810467502382170540680935996660133982679991991280709008051669985030277898593139677005998193816373755086792430,
  822068037328974613477770710261231471791498475684127841745179635845564643065818546216675047008977519942336117059617082633387496280,
  844749694983342394010890285541863952058162025568659495979750475454599836195227648392340405910901972035076490274241956448126151540,
  866006913771981955227867736059168542435332425845288378139387361988878450894180296309085281627042601804487446420964520760150893080,
  885803849292082787214910202536350988146495925972319001420244891045462688116548108388140135316409863683883142274129482295763868250,
  904107119545566828544425930704285315717250054185022641803286239943192707773300226547763428320110166980011174629455028376702886590,
  920885861252150118491581425070997810154222685319538662451670576238725534470411549358886901563950203272011669682146243682068154200,
  936111781934810796263222998921178227050223945244010684542329781301750299055404265900769699657977589934329944459434356401642866020,
  949759207710896385084895436968691365458790633646527638791036125227505458303426739734755863843523137713772133971021392579177176360,
  961805126758767827168032116152345766339651490447105223717348271004755553703812736409284998077066924890243811345433546511133853950,
  972229228520376904478080189594675597352940476861113906842060476808076129336669935338815741333332761632686875383110043606292978210,
  981013938975655895251838113832965029084639862956975202011953075259051405361322021999805543696238302900293583851235078089546084420,
  988144453359837438498644758224228630907922509036090642604610771556757624730942324075256937244892647281500513003255736450242205900,
  993608772723526984616191431928802504614655294878504568962874668270082862612053829466737246481868938006671100401047381044838638870,
  997397786355355436691434380834201280407923935468292963150564161562789091097584914241841070171927254100764398947662712738568757000,
  999505948362153078106201749533763365820349911386739784387811867049786364285083447819104241304867566023806387887863353168495024120]

/-- `case 76` (Util/Gauss_Legendre_Nodes_and_Weights.hpp:14682-15066), `weights`. -/
def weights76 : List Nat := [
  1267791634085359663282459396866565444703745367049954834539830233645208468466395084490829981702870766000000000000000000000000000,
  2949102953642474900393368951708983324461019413501724508647567645334843573460793103114161747240578460000000000000000000000000000,
  4627935228037421326128614376391711750528994436986767351409550926722283484245587294628867105652135030000000000000000000000000000,
  6299180497328445866573420240315865331789519644973447217890733481559683280113006831964731015390449800000000000000000000000000000,
  7959847477239734621118808629347380610719097854194426136053163185569492643390879970652441149342563500000000000000000000000000000,
  9607105414713754082404342660049275799340208084891660155322337335287509078549791759156710037744759600000000000000000000000000000,
  11238168569667687239674909531296510604841692397406690587622796086763526635544320172477540133339771100000000000000000000000000000,
  12850283847510144944925366815821059510191799806454876340762786476286351432380754381449701449440651910000000000000000000000000000,
  14440731748276679939889781724253668873034299533546386220410282697983492680768006331309580209731209980000000000000000000000000000,
  16006829912248570888510227311294380209922069348481319785709381456387174587999789758806486763750103730000000000000000000000000000,
  17545937291474230954199690482743786295438914785164719817913518654132521941463609686373526759042487480000000000000000000000000000,
  19055458467190582806802261170351301515322265594395086192851945940287115928162801150911895901353112119000000000000000000000000000,
  20532847967908021092975051820206721800204235699655382398451268338746184818087098539707464001777719790000000000000000000000000000,
  21975614534416249168013054802253027966027884622583154930407249219341281448695742545069160854903281800600000000000000000000000000,
  23381325307011186622479704520648239925653021978710864676866420713917686960830194830665133838075928904300000000000000000000000000,
  24747609920659671643264463344591805421899673946406341498942998100108309827033216286046089206227595567660000000000000000000000000,
  26072164497985983524274540963906478866897004281585249715919175080619636580860467737796715930269876958560000000000000000000000000,
  27352755531827521674152447861561345219957780096044538076369387347856381265663851676039200658086523805026000000000000000000000000,
  28587223650054003773975053178568699314948215583677293437299725743439472015916629105110663222814159181021700000000000000000000000,
  29773487255905040956707354664435529433026206965233074201716089233066330834731942208939617112818761931970900000000000000000000000,
  30909546037491595389936915255547283243074019085173689492392995379736965063170377449383690347807117763494760000000000000000000000,
  31993484340421600068535178861413640792566831628145341192142713742442472381470629897187153291635615620999907000000000000000000000,
  33023474397791741006541532695597030473811974310703829553257948997505054016412757121296482767977925510572069900000000000000000000,
  33997779412056380846742474758256621428848495493338173003906159525220774077148377419773220888740092188117500690000000000000000000,
  34914756483550767444125402107397614246980309248250204592635231953426322578629001989516938755667147870832526063000000000000000000,
  35772859380713947527779379358824028964903955944059707746676919465973594010401163369322039279916539953379054814700000000000000000,
  36570641147329617007244049599084050814914361670057876388175210064599148167567339259720248306118584512413801758120000000000000000,
  37306756542381609827567163361712325752947246455274132474319858860368061772171676658837654896731562606169693177166000000000000000,
  37979964308405283195235332209698109026754491209684413327466842060439765013283577215040993357734587412965639327945100000000000000,
  38589129264506738342921198336455531253314411787269595813685172084386286096186858240728875826157895911578594111315560000000000000,
  39133224220518440767507499457912222489989664286280250766065423286491725254067926940387178564840982944152033247280897300000000000,
  39611331709062058423146714848299263047362659780714970954600474354899764620924601428208428113200397560239074511481085400000000000,
  40022645532596826116461731721144448245942488014920092316302402927967394268362745236418889038169836938823990539024036515000000000,
  40366472122844023154095622847066188841725313113003229576399560526677649376590618879511566949287609239043582841007227532560000000,
  40642231710294738777454968858979548967553887730742636759011477755537950645839849775659575893825080225740318456471339438067000000,
  40849459301828492280391796242206800747591827041338257073759100809958511618947903529642943659927737059211402910933758581025160000,
  40987805464793951541308403154628223611543895667840152963025722763079530323580710782552693558452925528517302704304146113680288000,
  41057036916229422593259713879164730831266518092260487921070577544234543228879006352100909425103819814696146408430769321339773510,
  41057036916229422593259713879164730831266518092260487921070577544234543228879006352100909425103819814696146408430769321339773510,
  40987805464793951541308403154628223611543895667840152963025722763079530323580710782552693558452925528517302704304146113680288000,
  40849459301828492280391796242206800747591827041338257073759100809958511618947903529642943659927737059211402910933758581025160000,
  40642231710294738777454968858979548967553887730742636759011477755537950645839849775659575893825080225740318456471339438067000000,
  40366472122844023154095622847066188841725313113003229576399560526677649376590618879511566949287609239043582841007227532560000000,
  40022645532596826116461731721144448245942488014920092316302402927967394268362745236418889038169836938823990539024036515000000000,
  39611331709062058423146714848299263047362659780714970954600474354899764620924601428208428113200397560239074511481085400000000000,
  39133224220518440767507499457912222489989664286280250766065423286491725254067926940387178564840982944152033247280897300000000000,
  38589129264506738342921198336455531253314411787269595813685172084386286096186858240728875826157895911578594111315560000000000000,
  37979964308405283195235332209698109026754491209684413327466842060439765013283577215040993357734587412965639327945100000000000000,
  37306756542381609827567163361712325752947246455274132474319858860368061772171676658837654896731562606169693177166000000000000000,
  36570641147329617007244049599084050814914361670057876388175210064599148167567339259720248306118584512413801758120000000000000000,
  35772859380713947527779379358824028964903955944059707746676919465973594010401163369322039279916539953379054814700000000000000000,
  34914756483550767444125402107397614246980309248250204592635231953426322578629001989516938755667147870832526063000000000000000000,
  33997779412056380846742474758256621428848495493338173003906159525220774077148377419773220888740092188117500690000000000000000000,
  33023474397791741006541532695597030473811974310703829553257948997505054016412757121296482767977925510572069900000000000000000000,
  31993484340421600068535178861413640792566831628145341192142713742442472381470629897187153291635615620999907000000000000000000000,
  30909546037491595389936915255547283243074019085173689492392995379736965063170377449383690347807117763494760000000000000000000000,
  29773487255905040956707354664435529433026206965233074201716089233066330834731942208939617112818761931970900000000000000000000000,
  28587223650054003773975053178568699314948215583677293437299725743439472015916629105110663222814159181021700000000000000000000000,
  27352755531827521674152447861561345219957780096044538076369387347856381265663851676039200658086523805026000000000000000000000000,
  26072164497985983524274540963906478866897004281585249715919175080619636580860467737796715930269876958560000000000000000000000000,
  24747609920659671643264463344591805421899673946406341498942998100108309827033216286046089206227595567660000000000000000000000000,
  23381325307011186622479704520648239925653021978710864676866420713917686960830194830665133838075928904300000000000000000000000000,
  21975614534416249168013054802253027966027884622583154930407249219341281448695742545069160854903281800600000000000000000000000000,
  20532847967908021092975051820206721800204235699655382398451268338746184818087098539707464001777719790000000000000000000000000000,
  19055458467190582806802261170351301515322265594395086192851945940287115928162801150911895901353112119000000000000000000000000000,
  17545937291474230954199690482743786295438914785164719817913518654132521941463609686373526759042487480000000000000000000000000000,
  16006829912248570888510227311294380209922069348481319785709381456387174587999789758806486763750103730000000000000000000000000000,
  14440731748276679939889781724253668873034299533546386220410282697983492680768006331309580209731209980000000000000000000000000000,
  12850283847510144944925366815821059510191799806454876340762786476286351432380754381449701449440651910000000000000000000000000000,
  11238168569667687239674909531296510604841692397406690587622796086763526635544320172477540133339771100000000000000000000000000000,
  9607105414713754082404342660049275799340208084891660155322337335287509078549791759156710037744759600000000000000000000000000000,
  7959847477239734621118808629347380610719097854194426136053163185569492643390879970652441149342563500000000000000000000000000000,
  6299180497328445866573420240315865331789519644973447217890733481559683280113006831964731015390449800000000000000000000000000000,
  4627935228037421326128614376391711750528994436986767351409550926722283484245587294628867105652135030000000000000000000000000000,
  2949102953642474900393368951708983324461019413501724508647567645334843573460793103114161747240578460000000000000000000000000000,
  1267791634085359663282459396866565444703745367049954834539830233645208468466395084490829981702870766000000000000000000000000000]

/-- `case 77` (Util/Gauss_Legendre_Nodes_and_Weights.hpp:15068-15456), `nodes`. -/
def nodes77 : List Int := [
  -999518614633410009748581040343202822204846455892760663330916149555913407357161309767972432115569705600264206273781040152962581460,
  -997464477869214099874869736334281509695058776289606298299828915560854706254573654243372039000096191343705523623617421518585877330,
  -993772470949878248308911192267183358740576092768228019522614987543437287489069901539075411786115962308337514146466527853139664680,
  -988447838222561307325019029667767995215239321737933649645032424131091912934996114982648241885518025728477224233417573251754962210,
  -981499227331138462388344837192260198759109782301681658159738188003366839853464749566352969690175862717700593331652948833910648900,
  -972938030749108390346306143672228975572311272741722995038343507728031268347308096345898348620416584591524365670553594751861425080,
  -962778306467734311940161867734575270875463804204633751971469159179104723536375884693793310439961838974588315587904852831632823420,
  -951036743600591871523428828180724843142738202261026507742943980449797764652181178092954318882347774011522728185230187614832866520,
  -937732631959061044190142145801946234436179301366755009345289254718307400312087573270957015490140512913138839540700194745968305180,
  -922887829359402199928045435255686606537796861796566031352067446411400227948178731534463454184942848191557738075006442470332931310,
  -906526725321257818021090807691464216912946066558922881020125930666087354738464549250256680883816209724375086732526907038539753720,
  -888676200825564069894834904182990276598685244683130983120320468885071473642669611041316110783700802571316498700051075478640651920,
  -869365584067734059878654379413498502572702510060589036318849634695160760546865542300975176680571224228774092264459180879911242020,
  -848626602229624036469577833301314449099164421297472406115410385333155229195036084910547124279142132054391379733594015503902823930,
  -826493329329002119435586710882311683907184549561017388469008872816300517518578012270635755688668093911142440407585101233139838200,
  -803002130222925227383637799180832625660132989796709179181933755806320047333675796476544976232883475292998632968726144665730883340,
  -778191600852543141872867943895100554773373176230139661276038033860344463903302466493182188753508057125003821038845985009405347090,
  -752102504825215941384386620458921809864698304212439887995435109060696810567742155737326174051612443321394304680865873403460064300,
  -724777706436911728780785514517931978511746304940744218767977113623288895253337929686051328159413509308895002040094278949802058170,
  -696262100244242224791019967655212649334689197907763276182738173669496349929461219872936447197518595742245475080775976989956561480,
  -666602537301451493590916058492997343217121449302984394107495936428463130789410379716129585938188346823379578746242489446271894400,
  -635847748183312367013651211508255733786662338573399780735735013185115222902905349794090533306286483467753044783000609005651334790,
  -604048262920257384970148386065463530425101312962255070819617772744173188154260984465233860949994189549976636875359428890970591580,
  -571256327977198250806983160177293301582360062145075911479716035476831895935667397339862192880726262421314374497650494050558702000,
  -537525820412377739024424827550267541086010702276566983223935110647159247978427231986712357458646609601919881985938432368221334060,
  -502912159357251517807726309437455161078019460711412977595792439096924688733419154920170786079345327475676344516823782508504087910,
  -467472214962811794644643659926733443257635483891516499016352801466887059530582102562442785338810016864856045987363106196206102310,
  -431264214961935682072524169315439195126028405411290389591686713751178416040749688523379174242569659574906269060022741669756782090,
  -394347649001263560468467465320490781986010679132032841488168999341469979741245607426196862970075294041399117740961381834586451380,
  -356783170899781070578555317605293197334129561845802284939376563217560377855883425215463378160165785832430603022575636778971479710,
  -318632498994687308777523081194707874549861275059211566161231882735146964589097756291651832180813281838220266233370595895993910300,
  -279958314738276122064704751512273411763243509790635182482813109144063257345997354147068252316043434726804896137274271604138488430,
  -240824159712432197609681799711166369247999568664223282713149851013797390737460597422636723499442340879053480927916195124961826030,
  -201294331229944356638147657258435333546909314510740710045569379208566603740197529969103033307875819015931943589963338865625312880,
  -161433776694160931607184099717913028515180578227763728020050648241005142733294204403910996202090526383602381461350523232687018260,
  -121307986890552586641806820249756309837679388208799323588125427856101648311428074964998509617772307087664898179290755709515103180,
  -80982888385503131206497786834523903021077110139696996756670971501317247600686824537182385940721296350512200576331735908114588408,
  -40524735209115925930069812856752473208290914234176119341888612602623535129512117868334776754013906404207381646250282538556742214,
  0,
  40524735209115925930069812856752473208290914234176119341888612602623535129512117868334776754013906404207381646250282538556742214,
  80982888385503131206497786834523903021077110139696996756670971501317247600686824537182385940721296350512200576331735908114588408,
  121307986890552586641806820249756309837679388208799323588125427856101648311428074964998509617772307087664898179290755709515103180,
  161433776694160931607184099717913028515180578227763728020050648241005142733294204403910996202090526383602381461350523232687018260,
  201294331229944356638147657258435333546909314510740710045569379208566603740197529969103033307875819015931943589963338865625312880,
  240824159712432197609681799711166369247999568664223282713149851013797390737460597422636723499442340879053480927916195124961826030,
  279958314738276122064704751512273411763243509790635182482813109144063257345997354147068252316043434726804896137274271604138488430,
  318632498994687308777523081194707874549861275059211566161231882735146964589097756291651832180813281838220266233370595895993910300,
  356783170899781070578555317605293197334129561845802284939376563217560377855883425215463378160165785832430603022575636778971479710,
  394347649001263560468467465320490781986010679132032841488168999341469979741245607426196862970075294041399117740961381834586451380,
  431264214961935682072524169315439195126028405411290389591686713751178416040749688523379174242569659574906269060022741669756782090,
  467472214962811794644643659926733443257635483891516499016352801466887059530582102562442785338810016864856045987363106196206102310,
  502912159357251517807726309437455161078019460711412977595792439096924688733419154920170786079345327475676344516823782508504087910,
  537525820412377739024424827550267541086010702276566983223935110647159247978427231986712357458646609601919881985938432368221334060,
  571256327977198250806983160177293301582360062145075911479716035476831895935667397339862192880726262421314374497650494050558702000,
  604048262920257384970148386065463530425101312962255070819617772744173188154260984465233860949994189549976636875359428890970591580,
  635847748183312367013651211508255733786662338573399780735735013185115222902905349794090533306286483467753044783000609005651334790,
  666602537301451493590916058492997343217121449302984394107495936428463130789410379716129585938188346823379578746242489446271894400,
  696262100244242224791019967655212649334689197907763276182738173669496349929461219872936447197518595742245475080775976989956561480,
  724777706436911728780785514517931978511746304940744218767977113623288895253337929686051328159413509308895002040094278949802058170,
  752102504825215941384386620458921809864698304212439887995435109060696810567742155737326174051612443321394304680865873403460064300,
  778191600852543141872867943895100554773373176230139661276038033860344463903302466493182188753508057125003821038845985009405347090,
  803002130222925227383637799180832625660132989796709179181933755806320047333675796476544976232883475292998632968726144665730883340,
  826493329329002119435586710882311683907184549561017388469008872816300517518578012270635755688668093911142440407585101233139838200,
  848626602229624036469577833301314449099164421297472406115410385333155229195036084910547124279142132054391379733594015503902823930,
  869365584067734059878654379413498502572702510060589036318849634695160760546865542300975176680571224228774092264459180879911242020,
  888676200825564069894834904182990276598685244683130983120320468885071473642669611041316110783700802571316498700051075478640651920,
  906526725321257818021090807691464216912946066558922881020125930666087354738464549250256680883816209724375086732526907038539753720,
  922887829359402199928045435255686606537796861796566031352067446411400227948178731534463454184942848191557738075006442470332931310,
  937732631959061044190142145801946234436179301366755009345289254718307400312087573270957015490140512913138839540700194745968305180,
  951036743600591871523428828180724843142738202261026507742943980449797764652181178092954318882347774011522728185230187614832866520,
  962778306467734311940161867734575270875463804204633751971469159179104723536375884693793310439961838974588315587904852831632823420,
  972938030749108390346306143672228975572311272741722995038343507728031268347308096345898348620416584591524365670553594751861425080,
  981499227331138462388344837192260198759109782301681658159738188003366839853464749566352969690175862717700593331652948833910648900,
  988447838222561307325019029667767995215239321737933649645032424131091912934996114982648241885518025728477224233417573251754962210,
  993772470949878248308911192267183358740576092768228019522614987543437287489069901539075411786115962308337514146466527853139664680,
  997464477869214099874869736334281509695058776289606298299828915560854706254573654243372039000096191343705523623617421518585877330,
  999518614633410009748581040343202822204846455892760663330916149555913407357161309767972432115569705600264206273781040152962581460]

/-- `case 77` (Util/Gauss_Legendre_Nodes_and_Weights.hpp:15068-15456), `weights`. -/
def weights77 : List Nat := [
  1235291177139409614171869357770168488557471144602260845183324475154568571112031389261187151977566350000000000000000000000000000,
  2873553083652691657278410325919006963416139611067792885567554413755264234659141090449296706288771090000000000000000000000000000,
  4509523600205835333238260061722520135214507887894081467317701942806913421151771657494610611506409200000000000000000000000000000,
  6138296159756341839269897641949685714239545190860002603043890455149755719330078728094006241617677900000000000000000000000000000,
  7757025950083070731842371501508689475740252602129231530368270684092988426226521214931367390223045900000000000000000000000000000,
  9363023692386430769261940109212269083018769963876530979681903916580511503952780729836937754692963100000000000000000000000000000,
  10953642853911354238590990656431101268840272956249138635755097764082103478288206151903931818352418900000000000000000000000000000,
  12526267369227365187359936060926181565335096033875152741210724107926842124629485314480349489899865400000000000000000000000000000,
  14078312340027004050167974546948175759643554244279301492453730851736179733734793579136708140657749600000000000000000000000000000,
  15607227268749131295081252827354055253954177317991268850306679595744997597045320447596547224809428720000000000000000000000000000,
  17110499906531104176239626542281630626862357823332704901197311497382301581914251445915459641130184240000000000000000000000000000,
  18585660248341485509179745537289946199649656949949897561378778280423400850999239644902471594624817310000000000000000000000000000,
  20030284534316176396246234142168234853827325567865876311137946853087298798932140328414983019686982542000000000000000000000000000,
  21441999205456135505124960945589600985080935057256049499706173464616002679607689618781534719692918967000000000000000000000000000,
  22818484790129520512909668424238045514546131113125266229715819428873607013715285062974236366084631971200000000000000000000000000,
  24157479707955844940593878676602600079340919496083318635878942419047719103810988288737895046448897559000000000000000000000000000,
  25456783981694403752637761104254580682777877358259340852763004263198347870894990012226405847234608983550000000000000000000000000,
  26714262849557890832002790333969357862864463985364993754543549748931898892421418505061285974398966403470000000000000000000000000,
  27927850271276968541507245838539354767009972818849827048794883001085639518700746017293916698898276142780000000000000000000000000,
  29095552321768761348702490992589942888383311854584588215181463921423546630900146527957621255135515130887700000000000000000000000,
  30215450466622998691398689602668918693800427257174888907238321281959914941640752727282387555506662856945840000000000000000000000,
  31285704713905433393956468824802329702013987935884102859367383450950519131279851000303193446182045031777470000000000000000000000,
  32304556637030975593572024877018955429038221326153826410006886391588750095931312580660857254046192529428108000000000000000000000,
  33270332263698545302839450188942438987325853319866624764967365272840630600023659442299428414350144381996726100000000000000000000,
  34181444826115679265317929366678303730821346472748054919422834850445250691394558449310043496235910900858795050000000000000000000,
  35036397367978278454877534176860263640512921615278039837650919915149077811891605378365963988070354627278408261000000000000000000,
  35833785203911962602642635498871458241147225243575678933413237149007394387784905495005481203611043819924377332200000000000000000,
  36572298227327454533458330188441738322698597644134813572287906140088672921800312440724852947711546808929936772280000000000000000,
  37250723062893718878760275277392382073363408714346160575846514049549620843473483107857552597710078453917293761993700000000000000,
  37867945060089320261666826369882553297420391718920145061192077994681043187070199686806781007185036881468960720172320000000000000,
  38422950124554523673681167395015773726438636656574755942738720927649485053711119846999111675654391963039278860764919000000000000,
  38914826384233785621032819526946561525964152278378978106994567432685329032009640322586428138526794933925707026345142600000000000,
  39342765687570151937132306002140357919955080488220288202284213636378906930367706671840910327307553607124839258984572228000000000,
  39706064931289310681037544106445993979531558695128000447654446898414421306484285113323144754952493593664776923755110000500000000,
  40004127215591237410351510875602493820603241425538791336724896871805315153271205009111064600105265315981971359774423206090000000,
  40236462824851084195265252645091189171590973147176526158604969177767327381715357081466445724613493205626977713589261069648100000,
  40402690032217756170326194286986576071383589871994872942852841185116360931002882863960550368192067652666919563952232863143440000,
  40502535726788031955249604271169170220178229592442333434661051490624077561578158756953875599877443494769576048944421719829874800,
  40535835862325650292052261783554786555818835237932985089808189596396028571083956539382348413599569097985743812143707326278738926,
  40502535726788031955249604271169170220178229592442333434661051490624077561578158756953875599877443494769576048944421719829874800,
  40402690032217756170326194286986576071383589871994872942852841185116360931002882863960550368192067652666919563952232863143440000,
  40236462824851084195265252645091189171590973147176526158604969177767327381715357081466445724613493205626977713589261069648100000,
  40004127215591237410351510875602493820603241425538791336724896871805315153271205009111064600105265315981971359774423206090000000,
  39706064931289310681037544106445993979531558695128000447654446898414421306484285113323144754952493593664776923755110000500000000,
  39342765687570151937132306002140357919955080488220288202284213636378906930367706671840910327307553607124839258984572228000000000,
  38914826384233785621032819526946561525964152278378978106994567432685329032009640322586428138526794933925707026345142600000000000,
  38422950124554523673681167395015773726438636656574755942738720927649485053711119846999111675654391963039278860764919000000000000,
  37867945060089320261666826369882553297420391718920145061192077994681043187070199686806781007185036881468960720172320000000000000,
  37250723062893718878760275277392382073363408714346160575846514049549620843473483107857552597710078453917293761993700000000000000,
  36572298227327454533458330188441738322698597644134813572287906140088672921800312440724852947711546808929936772280000000000000000,
  35833785203911962602642635498871458241147225243575678933413237149007394387784905495005481203611043819924377332200000000000000000,
  35036397367978278454877534176860263640512921615278039837650919915149077811891605378365963988070354627278408261000000000000000000,
  34181444826115679265317929366678303730821346472748054919422834850445250691394558449310043496235910900858795050000000000000000000,
  33270332263698545302839450188942438987325853319866624764967365272840630600023659442299428414350144381996726100000000000000000000,
  32304556637030975593572024877018955429038221326153826410006886391588750095931312580660857254046192529428108000000000000000000000,
  31285704713905433393956468824802329702013987935884102859367383450950519131279851000303193446182045031777470000000000000000000000,
  30215450466622998691398689602668918693800427257174888907238321281959914941640752727282387555506662856945840000000000000000000000,
  29095552321768761348702490992589942888383311854584588215181463921423546630900146527957621255135515130887700000000000000000000000,
  27927850271276968541507245838539354767009972818849827048794883001085639518700746017293916698898276142780000000000000000000000000,
  26714262849557890832002790333969357862864463985364993754543549748931898892421418505061285974398966403470000000000000000000000000,
  25456783981694403752637761104254580682777877358259340852763004263198347870894990012226405847234608983550000000000000000000000000,
  24157479707955844940593878676602600079340919496083318635878942419047719103810988288737895046448897559000000000000000000000000000,
  22818484790129520512909668424238045514546131113125266229715819428873607013715285062974236366084631971200000000000000000000000000,
  21441999205456135505124960945589600985080935057256049499706173464616002679607689618781534719692918967000000000000000000000000000,
  20030284534316176396246234142168234853827325567865876311137946853087298798932140328414983019686982542000000000000000000000000000,
  18585660248341485509179745537289946199649656949949897561378778280423400850999239644902471594624817310000000000000000000000000000,
  17110499906531104176239626542281630626862357823332704901197311497382301581914251445915459641130184240000000000000000000000000000,
  15607227268749131295081252827354055253954177317991268850306679595744997597045320447596547224809428720000000000000000000000000000,
  14078312340027004050167974546948175759643554244279301492453730851736179733734793579136708140657749600000000000000000000000000000,
  12526267369227365187359936060926181565335096033875152741210724107926842124629485314480349489899865400000000000000000000000000000,
  10953642853911354238590990656431101268840272956249138635755097764082103478288206151903931818352418900000000000000000000000000000,
  9363023692386430769261940109212269083018769963876530979681903916580511503952780729836937754692963100000000000000000000000000000,
  7757025950083070731842371501508689475740252602129231530368270684092988426226521214931367390223045900000000000000000000000000000,
  6138296159756341839269897641949685714239545190860002603043890455149755719330078728094006241617677900000000000000000000000000000,
  4509523600205835333238260061722520135214507887894081467317701942806913421151771657494610611506409200000000000000000000000000000,
  2873553083652691657278410325919006963416139611067792885567554413755264234659141090449296706288771090000000000000000000000000000,
  1235291177139409614171869357770168488557471144602260845183324475154568571112031389261187151977566350000000000000000000000000000]

/-- `case 78` (Util/Gauss_Legendre_Nodes_and_Weights.hpp:15458-15852), `nodes`. -/
def nodes78 : List Int := [
  -999530799992423759518689966892146755520829927333163186484840534310980670683703414037094041686325928477817388209635837758164017390,
  -997528638378724361502298040034378991761224194753942805791845448305782387031224077271034946683225820253382834835341695820747289850,
  -993929961694488743182189805423806202036476877355453159360444155306135089131739928346186955038845061449532439189326420479686781600,
  -988739732093717434384563497029337708077939700599268380747620408624730952234645194725812559545426067988498160048988862340420271910,
  -981966163099550497784517825489786116429330391654437211328018304601364807705707643504062711700397194143188133683921237016978801800,
  -973620078506236442059910463545510743190985539470022371139251850558454706685784492609542663814692754486336319670181912224027442960,
  -963714835986755901559839865638146695740239307223643101799360121555800654309291266861920249862865445538878582499129491565360738920,
  -952266294689863363717211616918954144564146006075451572451643192216507241298701316480218688525041642343211492406794962386023183030,
  -939292786914946593070647145368681090515324457103538472685940697655750955644969985116942851316852630232923396453468878918221448690,
  -924815087780063776360327478109321786696176511991385048680996937481700478313674010474848293570751339106548171860895499030681113700,
  -908856381573188258207326258051021348089425087401289717920339878911839411448357321342590695356161091035762346322040582082819610840,
  -891442224458818578808554861761723567667381845208061297052293956610534518065618248180918462634871557980089351777037135423998213450,
  -872600503472724504931391899271769136954689373945726101513807146386716516971695065385920264677631966286796484311978937304243123970,
  -852361391822557703286001594066995493784831633904864953099746774485800590292273365224342759006866700956064225533626248651410837680,
  -830757300545911272737267817228320508720658185471845890113586440572122396868226605491426829139865474082049358424123527289026519830,
  -807822826594201686768651990436805784349181957618617173702918929356427338714015261651313048687066125051546580072624760978315400190,
  -783594697421142787071317747102904467965773288905111879077189516688584861916482794908574778402657758767016223348971296897076235100,
  -758111712162315315070400665541391211412028184347831433707219742015008946043554327817445912856935292914595922032818914922742752730,
  -731414679498830397498445388694532681512433532019820110396513042474065745440396448944849215414937057309445547011187086681994019900,
  -703546352303923772120564704421471430037472828658019071781735041905217853715529730384529382192779914395444155531423090055701782950,
  -674551359176750790323894360893433878621748066536012501109620188261496796342710516059971833051132210556463044288298324064634097420,
  -644476132972792854593097681356730483167422401859748753704099026221800702203012161390193555488106632401475358383346561898200732700,
  -613368836445184776799409162803244289031466151171958761245536762936162222171143695054861408262421216625293378648462318320141560900,
  -581279285115951755221529618144355799252607118405887079900472928093194894971556616591701120762513856060969975940642255887429955750,
  -548258867500612608746769281180210725033351996480877388091299338829915061433439294648319307928852655771283666213046498642558207080,
  -514360462813864058021890436592088919541472229587259271482198571907008404437955371694689290505697524407606112730540072739133145290,
  -479638356288107239685150390164635669461579251462102210807490805725863530800333453237177120285244739577674285186226694899594328400,
  -444148152240408603067264306947187606919358517151640901604818428310729029155951487947434352397555068554929417163773132378042132560,
  -407946685027098391646849052098990723772480305763352807396737006839414530956693740962140140810077392530836564343960952569275520070,
  -371091928028596274325726862935370748222321447390754834817748192704432564888548760049383467221805809419512080865823694990381618760,
  -333642900810210560782718902729722492894520686349254206142293292919377908462728196289393658329209204363387370206433217454590084850,
  -295659574607580145222958251881725245391437753415347751882216476010324798218186463069251892175486061237145075229185456097824045710,
  -257202776288112442988523146890674380174612921758956589108780957863287424306206098383077980293075939010539077903870863573474323630,
  -218334090942211978813689306719561699545568670324284307962040922603798883926501459226094325348960762772137833957568027918143280290,
  -179115763260289151562422935373625933507733867517286900964744447005831052180029870718910942049649358834512570262388047310181618440,
  -139610597853483594909275817883455609761653949802603029084848914139778499514055097786962477605605540548751412951863983839313494020,
  -99881858677728410528494653838650350374486768336096744592071652366864978349445253312738789098342289812727538009057718253959658898,
  -59993167722217693635874899911272805363387221532938641988449068282324278261390023616459771203427220157376710640663815060574087237,
  -20008403124517922952067431441557546520688256834801067208779988945233711147708548212005047023772328947015074568813416169687363565,
  20008403124517922952067431441557546520688256834801067208779988945233711147708548212005047023772328947015074568813416169687363565,
  59993167722217693635874899911272805363387221532938641988449068282324278261390023616459771203427220157376710640663815060574087237,
  99881858677728410528494653838650350374486768336096744592071652366864978349445253312738789098342289812727538009057718253959658898,
  139610597853483594909275817883455609761653949802603029084848914139778499514055097786962477605605540548751412951863983839313494020,
  179115763260289151562422935373625933507733867517286900964744447005831052180029870718910942049649358834512570262388047310181618440,
  218334090942211978813689306719561699545568670324284307962040922603798883926501459226094325348960762772137833957568027918143280290,
  257202776288112442988523146890674380174612921758956589108780957863287424306206098383077980293075939010539077903870863573474323630,
  295659574607580145222958251881725245391437753415347751882216476010324798218186463069251892175486061237145075229185456097824045710,
  333642900810210560782718902729722492894520686349254206142293292919377908462728196289393658329209204363387370206433217454590084850,
  371091928028596274325726862935370748222321447390754834817748192704432564888548760049383467221805809419512080865823694990381618760,
  407946685027098391646849052098990723772480305763352807396737006839414530956693740962140140810077392530836564343960952569275520070,
  444148152240408603067264306947187606919358517151640901604818428310729029155951487947434352397555068554929417163773132378042132560,
  479638356288107239685150390164635669461579251462102210807490805725863530800333453237177120285244739577674285186226694899594328400,
  514360462813864058021890436592088919541472229587259271482198571907008404437955371694689290505697524407606112730540072739133145290,
  548258867500612608746769281180210725033351996480877388091299338829915061433439294648319307928852655771283666213046498642558207080,
  581279285115951755221529618144355799252607118405887079900472928093194894971556616591701120762513856060969975940642255887429955750,
  613368836445184776799409162803244289031466151171958761245536762936162222171143695054861408262421216625293378648462318320141560900,
  644476132972792854593097681356730483167422401859748753704099026221800702203012161390193555488106632401475358383346561898200732700,
  674551359176750790323894360893433878621748066536012501109620188261496796342710516059971833051132210556463044288298324064634097420,
  703546352303923772120564704421471430037472828658019071781735041905217853715529730384529382192779914395444155531423090055701782950,
  731414679498830397498445388694532681512433532019820110396513042474065745440396448944849215414937057309445547011187086681994019900,
  758111712162315315070400665541391211412028184347831433707219742015008946043554327817445912856935292914595922032818914922742752730,
  783594697421142787071317747102904467965773288905111879077189516688584861916482794908574778402657758767016223348971296897076235100,
  807822826594201686768651990436805784349181957618617173702918929356427338714015261651313048687066125051546580072624760978315400190,
  830757300545911272737267817228320508720658185471845890113586440572122396868226605491426829139865474082049358424123527289026519830,
  852361391822557703286001594066995493784831633904864953099746774485800590292273365224342759006866700956064225533626248651410837680,
  872600503472724504931391899271769136954689373945726101513807146386716516971695065385920264677631966286796484311978937304243123970,
  891442224458818578808554861761723567667381845208061297052293956610534518065618248180918462634871557980089351777037135423998213450,
  908856381573188258207326258051021348089425087401289717920339878911839411448357321342590695356161091035762346322040582082819610840,
  924815087780063776360327478109321786696176511991385048680996937481700478313674010474848293570751339106548171860895499030681113700,
  939292786914946593070647145368681090515324457103538472685940697655750955644969985116942851316852630232923396453468878918221448690,
  952266294689863363717211616918954144564146006075451572451643192216507241298701316480218688525041642343211492406794962386023183030,
  963714835986755901559839865638146695740239307223643101799360121555800654309291266861920249862865445538878582499129491565360738920,
  973620078506236442059910463545510743190985539470022371139251850558454706685784492609542663814692754486336319670181912224027442960,
  981966163099550497784517825489786116429330391654437211328018304601364807705707643504062711700397194143188133683921237016978801800,
  988739732093717434384563497029337708077939700599268380747620408624730952234645194725812559545426067988498160048988862340420271910,
  993929961694488743182189805423806202036476877355453159360444155306135089131739928346186955038845061449532439189326420479686781600,
  997528638378724361502298040034378991761224194753942805791845448305782387031224077271034946683225820253382834835341695820747289850,
  999530799992423759518689966892146755520829927333163186484840534310980670683703414037094041686325928477817388209635837758164017390]

/-- `case 78` (Util/Gauss_Legendre_Nodes_and_Weights.hpp:15458-15852), `weights`. -/
def weights78 : List Nat := [
  1204024566067353280329873451472454735474182817079849472444822153924681131881037851872538631636208890000000000000000000000000000,
  2800868811838630411612956328626476855790766266241317944155933253707759902813681643017131316141103100000000000000000000000000000,
  4395596039460346742738185180747463925828390825645274601809818132797971378973382862591943615789405000000000000000000000000000000,
  5983489944440407989648737835098195402364346649149524211800165908569356707379490339373419819046403000000000000000000000000000000,
  7561843189439718826978146012824304451671464809629978332117365219127008132933411018533398748843222500000000000000000000000000000,
  9128099227255087276942355361588067472153984416810478647398451908411660254968210231648953633112578700000000000000000000000000000,
  10679742157481113353515913108222570326234356013811918609686960934705720081922290019076673520652103000000000000000000000000000000,
  12214284549789886397682836293063827482439937131592186349691991212070297710802495209569107757359155000000000000000000000000000000,
  13729267920144148393726727471052392846745412599948696337536371868729031486506573475451281224134945100000000000000000000000000000,
  15222265680178451693315569764515696222356681473978367726029338098935057145356929487248627029167865900000000000000000000000000000,
  16690886689343891866212360850870662153616607032503496187016523114540346242836617837030853338953066470000000000000000000000000000,
  18132778954982328644406367807272338860431054099921380707411820503696458544252436127825839441556729370000000000000000000000000000,
  19545633343399923377917872448914359419453647420627468667336151201213066065979017124435238836393348490000000000000000000000000000,
  20927187251877726785378097643045960657927626878612092824032408978425467511290035879323269576046575269000000000000000000000000000,
  22275228219113886763050474708121723322754271301592315945370692376977860220497664404639953765558216206000000000000000000000000000,
  23587597461457472096451373515064709299943670214696605932670486340236594532100511581544348194875666000900000000000000000000000000,
  24862193326222450761443443436846229465567676009782462251181982111682461217602827395283030266654460917500000000000000000000000000,
  26096974655108835029833696180112772523934666003022610305756640171155530500178728963768643681097468761880000000000000000000000000,
  27289964051624364864564237543323259202201836862106654502922458840041681432331208407928918626225721830794000000000000000000000000,
  28439251046897516262390496186268784822588992385447397362933568455324483526656103448215271565754166311495000000000000000000000000,
  29542995158606946411620071205602136053983286579594526171241013904987509755587312879266463451899590114478700000000000000000000000,
  30599428838013045289433204144915908205687049151434226444080683713167772960795519222249831166671410428239610000000000000000000000,
  31606860300304797738882756191676392036038552515847918490629020334363020684411403499873312785554921314740957000000000000000000000,
  32563676233689044408055559902797442590235597081553976228241284959777667204858118083316236932920494069371757500000000000000000000,
  33468344382858977972981441038414528535629273074880503204641849697481364415508562188627528922045095066679653680000000000000000000,
  34319416002689090290291799626307950986526116021852875979624841206929548269751644465086892690489698392441479260000000000000000000,
  35115528178217189474880055662283460773318601271312057158585571932669771365925254695308599471926785856690669054100000000000000000,
  35855406007191695445005726783368896914286779782213020842259977319967360947065878138549112601796470004869416242250000000000000000,
  36537864641684700648192350756317617147598485930181400360654378953093597715200462365437403165368443590164138551206000000000000000,
  37161811185498386850670998037893316237342721704207858308857915614574673934023286755989994584159905314657361992316400000000000000,
  37726246444324247864290147801820374757165810614058133894820470992883016286578655567056041049247210103740400058945260000000000000,
  38230266525850987649620252617282279635203497383422267653789349062893728473056419284445127603737444925256911279159482200000000000,
  38673064287257674003895558126995299367852485583224299400334036296593606020302203171404186646026129463421355838893075070000000000,
  39053930627773413147311365491204267324512509626008760268394772222198914539866847057089414423887920801435313612196438818000000000,
  39372255624233121937220264337310026987419492734110487710069615220044386325679941025734025350040389811274020005923065091930000000,
  39627529507810542956393493219690473626305263737843516347483793219018630445889421738172581102039748099322221125494477417465000000,
  39819343480364089225031755779217946851157613815211644590493480304204522429604814994256466907609406680627990159910425135325060000,
  39947390369088024879304889575453426531374769031924695264972791318245837147901567240047789435740415729060956297192154609869554000,
  40011465118420482988778588574396005988882523148917754761521202942632577350730034319710549119840110517293867719878897599353351470,
  40011465118420482988778588574396005988882523148917754761521202942632577350730034319710549119840110517293867719878897599353351470,
  39947390369088024879304889575453426531374769031924695264972791318245837147901567240047789435740415729060956297192154609869554000,
  39819343480364089225031755779217946851157613815211644590493480304204522429604814994256466907609406680627990159910425135325060000,
  39627529507810542956393493219690473626305263737843516347483793219018630445889421738172581102039748099322221125494477417465000000,
  39372255624233121937220264337310026987419492734110487710069615220044386325679941025734025350040389811274020005923065091930000000,
  39053930627773413147311365491204267324512509626008760268394772222198914539866847057089414423887920801435313612196438818000000000,
  38673064287257674003895558126995299367852485583224299400334036296593606020302203171404186646026129463421355838893075070000000000,
  38230266525850987649620252617282279635203497383422267653789349062893728473056419284445127603737444925256911279159482200000000000,
  37726246444324247864290147801820374757165810614058133894820470992883016286578655567056041049247210103740400058945260000000000000,
  37161811185498386850670998037893316237342721704207858308857915614574673934023286755989994584159905314657361992316400000000000000,
  36537864641684700648192350756317617147598485930181400360654378953093597715200462365437403165368443590164138551206000000000000000,
  35855406007191695445005726783368896914286779782213020842259977319967360947065878138549112601796470004869416242250000000000000000,
  35115528178217189474880055662283460773318601271312057158585571932669771365925254695308599471926785856690669054100000000000000000,
  34319416002689090290291799626307950986526116021852875979624841206929548269751644465086892690489698392441479260000000000000000000,
  33468344382858977972981441038414528535629273074880503204641849697481364415508562188627528922045095066679653680000000000000000000,
  32563676233689044408055559902797442590235597081553976228241284959777667204858118083316236932920494069371757500000000000000000000,
  31606860300304797738882756191676392036038552515847918490629020334363020684411403499873312785554921314740957000000000000000000000,
  30599428838013045289433204144915908205687049151434226444080683713167772960795519222249831166671410428239610000000000000000000000,
  29542995158606946411620071205602136053983286579594526171241013904987509755587312879266463451899590114478700000000000000000000000,
  28439251046897516262390496186268784822588992385447397362933568455324483526656103448215271565754166311495000000000000000000000000,
  27289964051624364864564237543323259202201836862106654502922458840041681432331208407928918626225721830794000000000000000000000000,
  26096974655108835029833696180112772523934666003022610305756640171155530500178728963768643681097468761880000000000000000000000000,
  24862193326222450761443443436846229465567676009782462251181982111682461217602827395283030266654460917500000000000000000000000000,
  23587597461457472096451373515064709299943670214696605932670486340236594532100511581544348194875666000900000000000000000000000000,
  22275228219113886763050474708121723322754271301592315945370692376977860220497664404639953765558216206000000000000000000000000000,
  20927187251877726785378097643045960657927626878612092824032408978425467511290035879323269576046575269000000000000000000000000000,
  19545633343399923377917872448914359419453647420627468667336151201213066065979017124435238836393348490000000000000000000000000000,
  18132778954982328644406367807272338860431054099921380707411820503696458544252436127825839441556729370000000000000000000000000000,
  16690886689343891866212360850870662153616607032503496187016523114540346242836617837030853338953066470000000000000000000000000000,
  15222265680178451693315569764515696222356681473978367726029338098935057145356929487248627029167865900000000000000000000000000000,
  13729267920144148393726727471052392846745412599948696337536371868729031486506573475451281224134945100000000000000000000000000000,
  12214284549789886397682836293063827482439937131592186349691991212070297710802495209569107757359155000000000000000000000000000000,
  10679742157481113353515913108222570326234356013811918609686960934705720081922290019076673520652103000000000000000000000000000000,
  9128099227255087276942355361588067472153984416810478647398451908411660254968210231648953633112578700000000000000000000000000000,
  7561843189439718826978146012824304451671464809629978332117365219127008132933411018533398748843222500000000000000000000000000000,
  5983489944440407989648737835098195402364346649149524211800165908569356707379490339373419819046403000000000000000000000000000000,
  4395596039460346742738185180747463925828390825645274601809818132797971378973382862591943615789405000000000000000000000000000000,
  2800868811838630411612956328626476855790766266241317944155933253707759902813681643017131316141103100000000000000000000000000000,
  1204024566067353280329873451472454735474182817079849472444822153924681131881037851872538631636208890000000000000000000000000000]

/-- `case 79` (Util/Gauss_Legendre_Nodes_and_Weights.hpp:15854-16252), `nodes`. -/
def nodes79 : List Int := [
  -999542528479569844324151575956936834036755917636729909419259502901339365486861984772902147693048674255609289161607068026766444630,
  -997590394336941435176854179003281946369339048680847121873357631231339510867333808171068175122138801164966554264020295416539726220,
  -994081554785542622411154989281750253778397198953813261824131212393294542095389910527568955999733146704454504795384932880901934760,
  -989020707687784337874758037557341151749131942235472798815428756905920608807481247954283168620429084214717027078171182438458160040,
  -982415659251278930098581377623963704856168267086843998750155127880971608628489587867414498638906264929797134046057747015116868710,
  -974276699597807118178834189554494185688998246619540195725706835828363537592968188870626212545612420826323566789512370714797017800,
  -964616529114864786107449590864828148569165145984351087701982907768057015774588590817878040395833912594001755663312083947706396140,
  -953450227889269135963276154423409342484292435398361296308156374448873300772299974684657175351964349659441768821951234374576528300,
  -940795229306577250300016736783687970441728154473759339056133510590488587790138888287527639738399426184892281606801827098596626990,
  -926671291880903873664522784006798092582699132120121078312334799600381349971803078270301463067657169650382188085672778051603599000,
  -911100468034580800245006188968332780707465070435916019304348618433509815903351846212356150938180539129299590251141770811441912660,
  -894107069504235101310429787954331809916631561280057878023893051091180519608788220396898969584872732608481611067514155594133817540,
  -875717629303529476659517434981349199742904300491322709387983859156138440921242362049547734088588317430438675358539326787543569270,
  -855960860255219376473270846800301137130305982783760223508509725359674209362080966862191868438175190498752009396658700639049213180,
  -834867610137777882067313399868964573456980441286444717186987854679771332971977033266593979998202601728244630046475015682415887790,
  -812470813507806773764807907463812944382837633732287234108081834997279897964586581381819374828410835877171816586992298564882120410,
  -788805440269197765565028634381372712010212161719715462028977555533477140921224880154373361312829435602579872656293942069727191760,
  -763908441067170108458325761698697589397986694085221286954500035914385041627930301481942113923157474280649524887907680521393419430,
  -737818689591278209525321646778991765501331562462495237469292398723114408420053709553193891479871991517806175177001491373399415070,
  -710576921876824163758205219862439142797151897665642122174616186712191447755397277045865131417409597555875122573192247720776534570,
  -682225672699071059277620331760021501595194926373653496462496990487241045762493056138620945808226414070230883307576385173894095150,
  -652809209159343998524893128147247957116582609852061561889819494541308386311666940850770116234829021630989272714238226937380486120,
  -622373461566577238882909702240571652180706141058655014547728176327301308341794151051643200015030746965469894592097113251256913030,
  -590965951722139982853281611988686670316334316023074671923041090879216062514771847199512262536223520004288953654410410320939100940,
  -558635718719858906655853105292389733214026101284935365556834670984612587843709661765658455636418150529763800071090723551925546340,
  -525433242377054547896267638735354967694469087890660707419701708844532430107137402013620287887348566438228300756981076590823311480,
  -491410364416119821095860854196647925179518269595954468106752701717689773539467021093893602182702093951121242706493578940377804790,
  -456620207519689131148709734231948607797705053530407922322395716705838303186610795462123971835245548722679750604566919387965260320,
  -421117092385771928732145760026309102329579973062319142028489773473026286119656801664492671682701097411929410431120747658993601200,
  -384956452912350883922246837847471229834089774971699735528795501300578748692720251132371236435625766287778675927417306946392574490,
  -348194749643867867239137372131712824659015134690488926993843917419480422708688993786269322006877040889647927905944458845661578330,
  -310889381614736437208874957251312482571752121507641323807535847252389482023210861041084201567450755722872149389969906566093403900,
  -273098596727523543742536067888724643790375469368056560753985729652861209091465801644668596193066018011937724236446728781834087610,
  -234881400805731915877249358919073761466081497663228661137866395938375459789460863002084615116309141602671327036235533615399302730,
  -196297465463184641659193928760542406282653995157130431503246464232979374425705264352533818456290325524445912919878228371586930520,
  -157407034933861605028225613380541922754558191953739393105026275035954649520082402957246715002079085147088070481770007931995874870,
  -118270832007660881166912057233522913723093934773422665353944714025911582206922844961873364529212896542455873142554704984024908250,
  -78949963218954405448085252955527820682245479927715385218105688276934746310979500379494329155775102228572212233684836152105936329,
  -39505823435974064058994796242793694744938372685386938508273242744249894158628263238808013319050321143330563162195925610029646901,
  0,
  39505823435974064058994796242793694744938372685386938508273242744249894158628263238808013319050321143330563162195925610029646901,
  78949963218954405448085252955527820682245479927715385218105688276934746310979500379494329155775102228572212233684836152105936329,
  118270832007660881166912057233522913723093934773422665353944714025911582206922844961873364529212896542455873142554704984024908250,
  157407034933861605028225613380541922754558191953739393105026275035954649520082402957246715002079085147088070481770007931995874870,
  196297465463184641659193928760542406282653995157130431503246464232979374425705264352533818456290325524445912919878228371586930520,
  234881400805731915877249358919073761466081497663228661137866395938375459789460863002084615116309141602671327036235533615399302730,
  273098596727523543742536067888724643790375469368056560753985729652861209091465801644668596193066018011937724236446728781834087610,
  310889381614736437208874957251312482571752121507641323807535847252389482023210861041084201567450755722872149389969906566093403900,
  348194749643867867239137372131712824659015134690488926993843917419480422708688993786269322006877040889647927905944458845661578330,
  384956452912350883922246837847471229834089774971699735528795501300578748692720251132371236435625766287778675927417306946392574490,
  421117092385771928732145760026309102329579973062319142028489773473026286119656801664492671682701097411929410431120747658993601200,
  456620207519689131148709734231948607797705053530407922322395716705838303186610795462123971835245548722679750604566919387965260320,
  491410364416119821095860854196647925179518269595954468106752701717689773539467021093893602182702093951121242706493578940377804790,
  525433242377054547896267638735354967694469087890660707419701708844532430107137402013620287887348566438228300756981076590823311480,
  558635718719858906655853105292389733214026101284935365556834670984612587843709661765658455636418150529763800071090723551925546340,
  590965951722139982853281611988686670316334316023074671923041090879216062514771847199512262536223520004288953654410410320939100940,
  622373461566577238882909702240571652180706141058655014547728176327301308341794151051643200015030746965469894592097113251256913030,
  652809209159343998524893128147247957116582609852061561889819494541308386311666940850770116234829021630989272714238226937380486120,
  682225672699071059277620331760021501595194926373653496462496990487241045762493056138620945808226414070230883307576385173894095150,
  710576921876824163758205219862439142797151897665642122174616186712191447755397277045865131417409597555875122573192247720776534570,
  737818689591278209525321646778991765501331562462495237469292398723114408420053709553193891479871991517806175177001491373399415070,
  763908441067170108458325761698697589397986694085221286954500035914385041627930301481942113923157474280649524887907680521393419430,
  788805440269197765565028634381372712010212161719715462028977555533477140921224880154373361312829435602579872656293942069727191760,
  812470813507806773764807907463812944382837633732287234108081834997279897964586581381819374828410835877171816586992298564882120410,
  834867610137777882067313399868964573456980441286444717186987854679771332971977033266593979998202601728244630046475015682415887790,
  855960860255219376473270846800301137130305982783760223508509725359674209362080966862191868438175190498752009396658700639049213180,
  875717629303529476659517434981349199742904300491322709387983859156138440921242362049547734088588317430438675358539326787543569270,
  894107069504235101310429787954331809916631561280057878023893051091180519608788220396898969584872732608481611067514155594133817540,
  911100468034580800245006188968332780707465070435916019304348618433509815903351846212356150938180539129299590251141770811441912660,
  926671291880903873664522784006798092582699132120121078312334799600381349971803078270301463067657169650382188085672778051603599000,
  940795229306577250300016736783687970441728154473759339056133510590488587790138888287527639738399426184892281606801827098596626990,
  953450227889269135963276154423409342484292435398361296308156374448873300772299974684657175351964349659441768821951234374576528300,
  964616529114864786107449590864828148569165145984351087701982907768057015774588590817878040395833912594001755663312083947706396140,
  974276699597807118178834189554494185688998246619540195725706835828363537592968188870626212545612420826323566789512370714797017800,
  982415659251278930098581377623963704856168267086843998750155127880971608628489587867414498638906264929797134046057747015116868710,
  989020707687784337874758037557341151749131942235472798815428756905920608807481247954283168620429084214717027078171182438458160040,
  994081554785542622411154989281750253778397198953813261824131212393294542095389910527568955999733146704454504795384932880901934760,
  997590394336941435176854179003281946369339048680847121873357631231339510867333808171068175122138801164966554264020295416539726220,
  999542528479569844324151575956936834036755917636729909419259502901339365486861984772902147693048674255609289161607068026766444630]

/-- `case 79` (Util/Gauss_Legendre_Nodes_and_Weights.hpp:15854-16252), `weights`. -/
def weights79 : List Nat := [
  1173930129956613021202214471075094235370925124739354658352366680409814899839983107308371771604236170000000000000000000000000000,
  2730907065754855918533390049021262240492688397755117516092467411968238708512914375650161650267279700000000000000000000000000000,
  4285929113126531218218836832285055447743447920736324073583724079626878021681179756703673261656582800000000000000000000000000000,
  5834459868763465589213486151675452839136517639265057645618029826147406794011341187856799005619616000000000000000000000000000000,
  7373921131330176830391183609961466390898995557181865631094973217334053460897310917806795158049949000000000000000000000000000000,
  8901880982652486253739792805481005582124807903533186155494347144285274618044108579908638952660290000000000000000000000000000000,
  10415946204513382579183469310391352635665312788279574396288950695170932646496828955007982087819187000000000000000000000000000000,
  11913750215116998699599873222671799351447293906909617604826751963722982324251086528583905838367553000000000000000000000000000000,
  13392953344825676197308942465537291416958298123377573180425715536507123744970052383590299078509658200000000000000000000000000000,
  14851245526350069318578950993092769199419223002604093138925317401306923414707125346405496509098762200000000000000000000000000000,
  16286349576191682091837256213723412081580213099397835421623803409035554709568305210092220597932454900000000000000000000000000000,
  17696024624310417864663025066750901900305209707448182070812927381898045627245394750591997072581238900000000000000000000000000000,
  19078069558937488584783969371080311001409980076894062355732922604671103533989008409862956852976430280000000000000000000000000000,
  20430326438140859878443379510795629185850111017955803014522077803462528741508558031407847854673036760000000000000000000000000000,
  21750683846608079768641969794581007246730223845752833518650615065941397128395337073597408752726141562000000000000000000000000000,
  23037080185719026276979193193097231087682921352326656306487744141520267901729817030454117697242418777000000000000000000000000000,
  24287506888799492639422275375642883172418522609992261539433736958562936691412662708962936724950928751000000000000000000000000000,
  25500011555128773947339507512156187590952575654242069199693016567633082507697548980387770664893032330700000000000000000000000000,
  26672700997105556537883425375636800027866539855949121903244253830198565200520542984743984331370176526330000000000000000000000000,
  27803744195447058944435639832740263276853530023959851034638652923366680588036704299398701794186300693686000000000000000000000000,
  28891375157607266781636524126676650894730556512497821696508654890088303915752767600710226599606286361150600000000000000000000000,
  29933895674838362895648733359610669790582484113211568655496050848931611139683560975710992641133424161181430000000000000000000000,
  30929677973524835288293896819305550314660408215663167713951761505041428885194869074098711616833920923768700000000000000000000000,
  31877167256611170360518963293731745401029615640855796726391707676375798102465049887140821732761560989106816000000000000000000000,
  32774884131130817853421503303062889908355528694562468001552316816752835537937312370884164562443639704924427500000000000000000000,
  33621426918030930049922683536675084046816626934161440178629109470279891566131405069778645211347180535887017150000000000000000000,
  34415473840676600882591503591972736585985652450428974482137398583702752099651032231062282818038102987909461830000000000000000000,
  35155785088611131128250698671542873793478085432110209894416578357404309687169102540523799408305198171895291587600000000000000000,
  35841204753345752289206925340877873283123199305374203254316210733255093605369014846260052499202546300559589579590000000000000000,
  36470662633153427529256485646573664912227645803278098109156019710112094026967068681904775358167492573264220977110200000000000000,
  37043175904046784159837855621732853400211342442858938726584983083011985316551707384191353581018829547739921609386640000000000000,
  37557850654329770477906992570350082925859057121581728607769292121067586991325657121050374842519047685322532121779681000000000000,
  38013883280326049545517506805694376287374695325146241098979314275515662349290661398221979056565837999457107669029515300000000000,
  38410561741104177405416593761470320716712056124780456116660868476845557434193892362502129802022067061961137896448193006000000000,
  38747266670239967068185330660133018845264218461740995176199301029107230968935089137198783963421991935901363257312855791700000000,
  39023472342879796026505019809340704171810431745353902556401825200097009063836289759924283509661895387487760962070415301750000000,
  39238747496594643554918862990787060243808020146736314365057712973728504830447587021970731577417745603845497122605121915611300000,
  39392756004743003934264202100670288470812257769112777409321191294448788854585648418166526271049805555571215278110023088253810000,
  39485257401291164753721667268931207415141839791117691820351677362539438305358371306369751803047888828236390013254996202018189600,
  39516107256271311709156539126926345362217880722253530089151261897848652111276204388015094976500525299174053092947014160083295565,
  39485257401291164753721667268931207415141839791117691820351677362539438305358371306369751803047888828236390013254996202018189600,
  39392756004743003934264202100670288470812257769112777409321191294448788854585648418166526271049805555571215278110023088253810000,
  39238747496594643554918862990787060243808020146736314365057712973728504830447587021970731577417745603845497122605121915611300000,
  39023472342879796026505019809340704171810431745353902556401825200097009063836289759924283509661895387487760962070415301750000000,
  38747266670239967068185330660133018845264218461740995176199301029107230968935089137198783963421991935901363257312855791700000000,
  38410561741104177405416593761470320716712056124780456116660868476845557434193892362502129802022067061961137896448193006000000000,
  38013883280326049545517506805694376287374695325146241098979314275515662349290661398221979056565837999457107669029515300000000000,
  37557850654329770477906992570350082925859057121581728607769292121067586991325657121050374842519047685322532121779681000000000000,
  37043175904046784159837855621732853400211342442858938726584983083011985316551707384191353581018829547739921609386640000000000000,
  36470662633153427529256485646573664912227645803278098109156019710112094026967068681904775358167492573264220977110200000000000000,
  35841204753345752289206925340877873283123199305374203254316210733255093605369014846260052499202546300559589579590000000000000000,
  35155785088611131128250698671542873793478085432110209894416578357404309687169102540523799408305198171895291587600000000000000000,
  34415473840676600882591503591972736585985652450428974482137398583702752099651032231062282818038102987909461830000000000000000000,
  33621426918030930049922683536675084046816626934161440178629109470279891566131405069778645211347180535887017150000000000000000000,
  32774884131130817853421503303062889908355528694562468001552316816752835537937312370884164562443639704924427500000000000000000000,
  31877167256611170360518963293731745401029615640855796726391707676375798102465049887140821732761560989106816000000000000000000000,
  30929677973524835288293896819305550314660408215663167713951761505041428885194869074098711616833920923768700000000000000000000000,
  29933895674838362895648733359610669790582484113211568655496050848931611139683560975710992641133424161181430000000000000000000000,
  28891375157607266781636524126676650894730556512497821696508654890088303915752767600710226599606286361150600000000000000000000000,
  27803744195447058944435639832740263276853530023959851034638652923366680588036704299398701794186300693686000000000000000000000000,
  26672700997105556537883425375636800027866539855949121903244253830198565200520542984743984331370176526330000000000000000000000000,
  25500011555128773947339507512156187590952575654242069199693016567633082507697548980387770664893032330700000000000000000000000000,
  24287506888799492639422275375642883172418522609992261539433736958562936691412662708962936724950928751000000000000000000000000000,
  23037080185719026276979193193097231087682921352326656306487744141520267901729817030454117697242418777000000000000000000000000000,
  21750683846608079768641969794581007246730223845752833518650615065941397128395337073597408752726141562000000000000000000000000000,
  20430326438140859878443379510795629185850111017955803014522077803462528741508558031407847854673036760000000000000000000000000000,
  19078069558937488584783969371080311001409980076894062355732922604671103533989008409862956852976430280000000000000000000000000000,
  17696024624310417864663025066750901900305209707448182070812927381898045627245394750591997072581238900000000000000000000000000000,
  16286349576191682091837256213723412081580213099397835421623803409035554709568305210092220597932454900000000000000000000000000000,
  14851245526350069318578950993092769199419223002604093138925317401306923414707125346405496509098762200000000000000000000000000000,
  13392953344825676197308942465537291416958298123377573180425715536507123744970052383590299078509658200000000000000000000000000000,
  11913750215116998699599873222671799351447293906909617604826751963722982324251086528583905838367553000000000000000000000000000000,
  10415946204513382579183469310391352635665312788279574396288950695170932646496828955007982087819187000000000000000000000000000000,
  8901880982652486253739792805481005582124807903533186155494347144285274618044108579908638952660290000000000000000000000000000000,
  7373921131330176830391183609961466390898995557181865631094973217334053460897310917806795158049949000000000000000000000000000000,
  5834459868763465589213486151675452839136517639265057645618029826147406794011341187856799005619616000000000000000000000000000000,
  4285929113126531218218836832285055447743447920736324073583724079626878021681179756703673261656582800000000000000000000000000000,
  2730907065754855918533390049021262240492688397755117516092467411968238708512914375650161650267279700000000000000000000000000000,
  1173930129956613021202214471075094235370925124739354658352366680409814899839983107308371771604236170000000000000000000000000000]

/-- `case 80` (Util/Gauss_Legendre_Nodes_and_Weights.hpp:16254-16658), `nodes`. -/
def nodes80 : List Int := [
  -999553822651630629880080499094567184991693557685851817816371219867321146835621821104911933930632165488843712285581664188385427690,
  -997649864398237688899494208183122985331074834396563621481884029617399304187921842273625188577814797711996323220531945890392178270,
  -994227540965688277892063503664911698088808604954712035819943263588551149823067481386720688277464241137836086507440999587530688050,
  -989291302499755531026503167136631385282151777830901614537433877694405392137436995660571823062940816650467618394174877440939935560,
  -982848572738629070418288027709116473568694058814879837207539857969175853629473974710882380654117703386057940049859249348465607870,
  -974909140585727793385645230069136276244959716036304476853701567455782045440111005984160398639278219749799162290008432428210858480,
  -965485089043799251452273155671454998502903485848611304473289491364589414047323029988236834969661785179991656868117025674441901480,
  -954590766343634905493481517021029508783646814704099200519341188283341648378724213535189091148521401428391136628483480381593091770,
  -942242761309872674752266004500001735070833966241979363484039226541744981771963757030962367579193486450151551065335311020187934660,
  -928459877172445795953045959075453133792234988839582012054803009503138605172986383900264310749315536081961037286652643523551016410,
  -913263102571757654164733656150947478111452468310774734314103604613119921502450069251325512395931405498186439751846154788742698440,
  -896675579438770683194324071967395986307299702051986985196059564364339049620277639822432132392321363370934756640292291293271867210,
  -878722567678213828703773343639124407935851776676766267392623278242431205373143036454120997806220325416528002234923426454798086330,
  -859431406663111096977192123491656492839931489614644255445562976532651466091395800640150542471863116840080322261692683436341047070,
  -838831473580255275616623043902867064793623412611807714956704525602723268107444805453015405512382194869195733377414643115113453650,
  -816954138681463470371124994012295707742841200671466249305446789107962774345411130851044882561477464603204510918046412324001942850,
  -793832717504605449948639311738454358610603750752767387598119024413513913673660010702019034753141259861190695884960699821257027310,
  -769502420135041373865616068749026083985405945335283938547276051773536292296318270720162556314041614778420317793112552197527756230,
  -744000297583597272316540527930913673808679084668918214688948704190520271998187922249859324574285442088833104519539976578263229890,
  -717365185362099880254068258293815278566830552925811099070698325729238414265167714601505693110106688150873569291141766689308270960,
  -689637644342027600771207612438935266089722945470212805337565094123657749767155346340268200671153129105032645390887033117288032360,
  -660859898986119801735967122844317234805060118715519194875026769941056439543158774133982882563154863329036269523556452926539634570,
  -631075773046871966247928387289336863089063470073339188938360988398482369142622479801478922981894718603314067678972922527042683320,
  -600330622829751743154746299164006848430055094813786741685652028318545995970736278362106843334269512489801032684171077728795200120,
  -568671268122709784725485786624827158741993573659612861457380944176682551123756579664820054556649460082512308066422341972433059870,
  -536145920897131932019857253125400904911693125079156922726745282501350936403401112927063030906514808554079995893096323091452096190,
  -502804111888784987593672750367568003564940672499598159882670417372668570017442909481022294701835319521748594766953061929010248500,
  -468696615170544477036078364935808657293956006488266802317417567861837118679626265553983782257056397883135728060596766585748881200,
  -433875370831756093062386700363181958302108304345194745336508128705885110536440187487617702533404688693289837276933431181725826800,
  -398393405881969227024379642517533757117249124713572658748697688177075594507459230260377013364191766129350111598224578439591241730,
  -362304753499487315619043286358963588017109625123613371825487694348816713023341001003029839200496448368258832660929266079179158780,
  -325664370747701914619112943627358695036984755109080396761317809804057242240975123718816253076101020951751522351307680237152279630,
  -288528054884511853109139301434713898496405289013765936421046429298107146532487297068688565127166788699390843829335625270246157960,
  -250952358392272120493158816035004797363048927563799213064835366143802502660475959282857971135041459608700241015470123695348061830,
  -212994502857666132572388538666321823094788750834773702148596705813766447830045543310252225378027027368489400847399704189513679510,
  -174712291832646812559339048011286195718810774977062579504009119516370917509562986426713635840207848671349828822923622915162109000,
  -136164022809143886559241078000717067933136249634883110529029412073262722274689194897376528775827377270390686291595424131234118870,
  -97408398441584599063278450104936902017066184436766092590847635230667557850499973540265495725532964220815595473890965444889760781,
  -58504437152420668628993321883417794425398674701914398208795539637790408327052624975017123436407977940985484722095140273963069674,
  -19511383256793997654351234107454547933551301646997815134570447581884372245392999864015126785173378001428164852728728719268884933,
  19511383256793997654351234107454547933551301646997815134570447581884372245392999864015126785173378001428164852728728719268884933,
  58504437152420668628993321883417794425398674701914398208795539637790408327052624975017123436407977940985484722095140273963069674,
  97408398441584599063278450104936902017066184436766092590847635230667557850499973540265495725532964220815595473890965444889760781,
  136164022809143886559241078000717067933136249634883110529029412073262722274689194897376528775827377270390686291595424131234118870,
  174712291832646812559339048011286195718810774977062579504009119516370917509562986426713635840207848671349828822923622915162109000,
  212994502857666132572388538666321823094788750834773702148596705813766447830045543310252225378027027368489400847399704189513679510,
  250952358392272120493158816035004797363048927563799213064835366143802502660475959282857971135041459608700241015470123695348061830,
  288528054884511853109139301434713898496405289013765936421046429298107146532487297068688565127166788699390843829335625270246157960,
  325664370747701914619112943627358695036984755109080396761317809804057242240975123718816253076101020951751522351307680237152279630,
  362304753499487315619043286358963588017109625123613371825487694348816713023341001003029839200496448368258832660929266079179158780,
  398393405881969227024379642517533757117249124713572658748697688177075594507459230260377013364191766129350111598224578439591241730,
  433875370831756093062386700363181958302108304345194745336508128705885110536440187487617702533404688693289837276933431181725826800,
  468696615170544477036078364935808657293956006488266802317417567861837118679626265553983782257056397883135728060596766585748881200,
  502804111888784987593672750367568003564940672499598159882670417372668570017442909481022294701835319521748594766953061929010248500,
  536145920897131932019857253125400904911693125079156922726745282501350936403401112927063030906514808554079995893096323091452096190,
  568671268122709784725485786624827158741993573659612861457380944176682551123756579664820054556649460082512308066422341972433059870,
  600330622829751743154746299164006848430055094813786741685652028318545995970736278362106843334269512489801032684171077728795200120,
  631075773046871966247928387289336863089063470073339188938360988398482369142622479801478922981894718603314067678972922527042683320,
  660859898986119801735967122844317234805060118715519194875026769941056439543158774133982882563154863329036269523556452926539634570,
  689637644342027600771207612438935266089722945470212805337565094123657749767155346340268200671153129105032645390887033117288032360,
  717365185362099880254068258293815278566830552925811099070698325729238414265167714601505693110106688150873569291141766689308270960,
  744000297583597272316540527930913673808679084668918214688948704190520271998187922249859324574285442088833104519539976578263229890,
  769502420135041373865616068749026083985405945335283938547276051773536292296318270720162556314041614778420317793112552197527756230,
  793832717504605449948639311738454358610603750752767387598119024413513913673660010702019034753141259861190695884960699821257027310,
  816954138681463470371124994012295707742841200671466249305446789107962774345411130851044882561477464603204510918046412324001942850,
  838831473580255275616623043902867064793623412611807714956704525602723268107444805453015405512382194869195733377414643115113453650,
  859431406663111096977192123491656492839931489614644255445562976532651466091395800640150542471863116840080322261692683436341047070,
  878722567678213828703773343639124407935851776676766267392623278242431205373143036454120997806220325416528002234923426454798086330,
  896675579438770683194324071967395986307299702051986985196059564364339049620277639822432132392321363370934756640292291293271867210,
  913263102571757654164733656150947478111452468310774734314103604613119921502450069251325512395931405498186439751846154788742698440,
  928459877172445795953045959075453133792234988839582012054803009503138605172986383900264310749315536081961037286652643523551016410,
  942242761309872674752266004500001735070833966241979363484039226541744981771963757030962367579193486450151551065335311020187934660,
  954590766343634905493481517021029508783646814704099200519341188283341648378724213535189091148521401428391136628483480381593091770,
  965485089043799251452273155671454998502903485848611304473289491364589414047323029988236834969661785179991656868117025674441901480,
  974909140585727793385645230069136276244959716036304476853701567455782045440111005984160398639278219749799162290008432428210858480,
  982848572738629070418288027709116473568694058814879837207539857969175853629473974710882380654117703386057940049859249348465607870,
  989291302499755531026503167136631385282151777830901614537433877694405392137436995660571823062940816650467618394174877440939935560,
  994227540965688277892063503664911698088808604954712035819943263588551149823067481386720688277464241137836086507440999587530688050,
  997649864398237688899494208183122985331074834396563621481884029617399304187921842273625188577814797711996323220531945890392178270,
  999553822651630629880080499094567184991693557685851817816371219867321146835621821104911933930632165488843712285581664188385427690]

/-- `case 80` (Util/Gauss_Legendre_Nodes_and_Weights.hpp:16254-16658), `weights`. -/
def weights80 : List Nat := [
  1144950003186941534544171941315636118699392405575902868326241074133955121022757185416520804845066200000000000000000000000000000,
  2663533589512681669293535831668455465744554242387148563073567859408375287855934036255882958431343400000000000000000000000000000,
  4180313124694895236739304201681351323549497373106439522058802418599616947831343186381576866890196000000000000000000000000000000,
  5690922451403198649269107117162018476925263834677132521967901171100507340891267220872516880951848000000000000000000000000000000,
  7192904768117312752675570867956507476507038192365300044631764003019865335615451629083502207600937000000000000000000000000000000,
  8683945269260858426409452204034281352406042955065409707682779796515139895644417383688413694648775000000000000000000000000000000,
  10161766041103064520831850352406943664045781879640525294068684675756178562681848172811183473023502000000000000000000000000000000,
  11624114120797826916466769995432634859513181502962132965090042820835154388228642297905429714593286000000000000000000000000000000,
  13068761592401339293786825897056340310418634382414433544347893911267556815001191576338406080326005000000000000000000000000000000,
  14493508040509076116962074583460550055956872155115513056446931058489073242130824580721713139607233000000000000000000000000000000,
  15896183583725688044902909229178525770972092605721932726857343471934095271365798969279121855069040200000000000000000000000000000,
  17274652056269306358584207131290999800311029304010341007175782157639251793791382956250670785111545500000000000000000000000000000,
  18626814208299031428735414152157209008447766336164423450359294538426357013355101203977579754053517100000000000000000000000000000,
  19950610878141998928891928715113563360501064285015930666747258462058804461741106751829065563951505600000000000000000000000000000,
  21244026115782006388710737250613128546468924243307980508309376868200001911883303359860412366720519820000000000000000000000000000,
  22505090246332461926221589686168739020579588371837062984518424304408362233383552486830867118042294843000000000000000000000000000,
  23731882865930101293192524613568416292342529108321895771591911024874537760540797022292856025640514215000000000000000000000000000,
  24922535764115491105117847003219802357102489875561695514592367898069619693378740168946843062280817273800000000000000000000000000,
  26075235767565117902968743600269287125697475829239309951349298011957159703443016579073816110211233255100000000000000000000000000,
  27188227500486380674418706680544259829877175700107070400084418029180092658309300897021710101905950933860000000000000000000000000,
  28259816057276862396753197965014530294265498373139791800286889663393979762593783957047275679141919851701000000000000000000000000,
  29288369583267847692767586019579139661207431144630795189885749869550341482261787375064737434760911443815700000000000000000000000,
  30272321759557980661220010090901174747342067559689278075781027729915623532376686569849982626811219319928590000000000000000000000,
  31210174188114701642442866720603551865999720820282766009547809115460570974638302923230784495227946698725376000000000000000000000,
  32100498673487773148056490287250696089516763832593649826764438539817355370942914029501178470226876364117619300000000000000000000,
  32941939397645401382836180901959536128027037692728617664199542841151714020866912230653652522315580091940955030000000000000000000,
  33733214984611522816675163064238728445826503848166702799732263248307057261343674344055401823410118676384191187000000000000000000,
  34473120451753928794364226731029832076780796742952979903292485373752899699294098088555962663019536817970542941000000000000000000,
  35160529044747593495526592388696881229162452310513498469763192364273617712393431682293328131606640993063554883530000000000000000,
  35794393953416054602861588816154454240236135230575270793800134606219311254700546715967964551882249389669014596347000000000000000,
  36373749905835978043964991046522813660062821787610171945622961756403766335649891963757285431108839100949197555765400000000000000,
  36897714638276008839150996573405219268568101131828625841300322707949172495201635360174082747224900914827962154893360000000000000,
  37365490238730490026705377057838669164806907949427379704784813835988583931657402601571006870920597856107083235266383600000000000,
  37776364362001397489774976426321054770701924019569514761290847470398319468506585140499752542064267603986270936988681080000000000,
  38129711314477638344206791565736201914143923906559034052887826960176094495641862222524530969339337959453170267026153564000000000,
  38424993006959423185212436329490138431021876270910246388101982536616592424597030951758609372025154848390726465398954756630000000,
  38661759774076463327077110267156691260900927839864420017483622020162626544446858430724462735130177270497720311469130628661000000,
  38839651059051968931774182668787165890880229340485854291033617857263970839887753371531073129062986002500324567933050155270420000,
  38958395962769531198625524772260822314932011586269561598471492383311961240885497607541461442681527422230164423824815449617599000,
  39017813656306654811280439252754048329550474029604259796688895564012735714017566768859377798134079635944213127416136710956210830,
  39017813656306654811280439252754048329550474029604259796688895564012735714017566768859377798134079635944213127416136710956210830,
  38958395962769531198625524772260822314932011586269561598471492383311961240885497607541461442681527422230164423824815449617599000,
  38839651059051968931774182668787165890880229340485854291033617857263970839887753371531073129062986002500324567933050155270420000,
  38661759774076463327077110267156691260900927839864420017483622020162626544446858430724462735130177270497720311469130628661000000,
  38424993006959423185212436329490138431021876270910246388101982536616592424597030951758609372025154848390726465398954756630000000,
  38129711314477638344206791565736201914143923906559034052887826960176094495641862222524530969339337959453170267026153564000000000,
  37776364362001397489774976426321054770701924019569514761290847470398319468506585140499752542064267603986270936988681080000000000,
  37365490238730490026705377057838669164806907949427379704784813835988583931657402601571006870920597856107083235266383600000000000,
  36897714638276008839150996573405219268568101131828625841300322707949172495201635360174082747224900914827962154893360000000000000,
  36373749905835978043964991046522813660062821787610171945622961756403766335649891963757285431108839100949197555765400000000000000,
  35794393953416054602861588816154454240236135230575270793800134606219311254700546715967964551882249389669014596347000000000000000,
  35160529044747593495526592388696881229162452310513498469763192364273617712393431682293328131606640993063554883530000000000000000,
  34473120451753928794364226731029832076780796742952979903292485373752899699294098088555962663019536817970542941000000000000000000,
  33733214984611522816675163064238728445826503848166702799732263248307057261343674344055401823410118676384191187000000000000000000,
  32941939397645401382836180901959536128027037692728617664199542841151714020866912230653652522315580091940955030000000000000000000,
  32100498673487773148056490287250696089516763832593649826764438539817355370942914029501178470226876364117619300000000000000000000,
  31210174188114701642442866720603551865999720820282766009547809115460570974638302923230784495227946698725376000000000000000000000,
  30272321759557980661220010090901174747342067559689278075781027729915623532376686569849982626811219319928590000000000000000000000,
  29288369583267847692767586019579139661207431144630795189885749869550341482261787375064737434760911443815700000000000000000000000,
  28259816057276862396753197965014530294265498373139791800286889663393979762593783957047275679141919851701000000000000000000000000,
  27188227500486380674418706680544259829877175700107070400084418029180092658309300897021710101905950933860000000000000000000000000,
  26075235767565117902968743600269287125697475829239309951349298011957159703443016579073816110211233255100000000000000000000000000,
  24922535764115491105117847003219802357102489875561695514592367898069619693378740168946843062280817273800000000000000000000000000,
  23731882865930101293192524613568416292342529108321895771591911024874537760540797022292856025640514215000000000000000000000000000,
  22505090246332461926221589686168739020579588371837062984518424304408362233383552486830867118042294843000000000000000000000000000,
  21244026115782006388710737250613128546468924243307980508309376868200001911883303359860412366720519820000000000000000000000000000,
  19950610878141998928891928715113563360501064285015930666747258462058804461741106751829065563951505600000000000000000000000000000,
  18626814208299031428735414152157209008447766336164423450359294538426357013355101203977579754053517100000000000000000000000000000,
  17274652056269306358584207131290999800311029304010341007175782157639251793791382956250670785111545500000000000000000000000000000,
  15896183583725688044902909229178525770972092605721932726857343471934095271365798969279121855069040200000000000000000000000000000,
  14493508040509076116962074583460550055956872155115513056446931058489073242130824580721713139607233000000000000000000000000000000,
  13068761592401339293786825897056340310418634382414433544347893911267556815001191576338406080326005000000000000000000000000000000,
  11624114120797826916466769995432634859513181502962132965090042820835154388228642297905429714593286000000000000000000000000000000,
  10161766041103064520831850352406943664045781879640525294068684675756178562681848172811183473023502000000000000000000000000000000,
  8683945269260858426409452204034281352406042955065409707682779796515139895644417383688413694648775000000000000000000000000000000,
  7192904768117312752675570867956507476507038192365300044631764003019865335615451629083502207600937000000000000000000000000000000,
  5690922451403198649269107117162018476925263834677132521967901171100507340891267220872516880951848000000000000000000000000000000,
  4180313124694895236739304201681351323549497373106439522058802418599616947831343186381576866890196000000000000000000000000000000,
  2663533589512681669293535831668455465744554242387148563073567859408375287855934036255882958431343400000000000000000000000000000,
  1144950003186941534544171941315636118699392405575902868326241074133955121022757185416520804845066200000000000000000000000000000]

/-- `case 81` (Util/Gauss_Legendre_Nodes_and_Weights.hpp:16660-17068), `nodes`. -/
def nodes81 : List Int := [
  -999564703690319034476721091515535435906809487341047639120346374502976050024288185683096419988983764848076256146974243123033088060,
  -997707159988346463657951071070441547323714007946537965601979866548915593667539354637983145410025723224701583662571337601975335900,
  -994368193285219865022676840380476999300702369451743615636805683738989415903906607765124949193965135811768545587228036596669327620,
  -989552021371021999127889387244924439307630825129068852467921819826801572253701536966736237826425453245512039957168010574692550510,
  -983265708566430227219940909949400189273013925622064670940508855959260161498241142090290778545896134999286977604106887262490934960,
  -975518572672361296916253860825913501012896647223709171799873268403969511131344356250423576566974892198501675658654850763748670440,
  -966322116338056111070092156099435864662616559035229799464766164629588373456534554998238019491899193408744651928251549726551560260,
  -955689999756402515248837068806144149503846608832495781256574951743799941876547026501642176572530429497628348829532197968891513070,
  -943638017652813821180581535384817876975760018684290633042928440680095758570021660932307796026254982335609532877929568652778717090,
  -930184074915167503022545555195016011594110610288171471961231649224432585209641943388092597267639621299597516793801267092618913060,
  -915348159640750717289077682140752603206251815698637665914903001869242125743505712408097905161920312399092679008204783065992979310,
  -899152313286156530852665968224606386618062594254364884203794542107337584910540153682290781088233941832742558848790228703212736080,
  -881620597846720146168274251560532501516329842739645212161333782479834543521014130055917717835781646355201859116373347642404608570,
  -862779060069791894673747431885790825375192931346375724111377614572637482654645210293666764784000714180586891494229799683677234650,
  -842655692736467046206712622806980335288174244659569520522771741001075464181880382184263277008610262589855951833706568408839062870,
  -821280393060910223458767880433111904294988540768440942824394536530517597011009264755795765777601216492122120583960211664074925990,
  -798684918265028282157201455006824055637235472391435949446152089299604379699335140365206900080674263537414972196220304831371837120,
  -774902838392423431405637521084296314516255881420080916369532897332276632218607834827181148920239783228238861584327985350414293990,
  -749969486430620672222514710983212076507915912551040417241407194187536461609986503623333140494383964115978329022630913862946026990,
  -723921905815052614443363963353679813824770666426490346603754303873052688133328739929997809920097107154503850752801255844718149440,
  -696798795392435609681860494729900082278403343372081199295273803059411013343781969475423054787391497614048239381984612642032979120,
  -668640451925090146604899187318929071790302326992537951397577076132592250852839178723086907488713407659053100091088306528066267510,
  -639488710221494554644762007346320645292096179116699606559063281144789775218296291352271004127580356337848246410741450973898806900,
  -609386880981936546058807831697927227469022624116158535278123673909416851696108530914180241518814769781337283242928483657983236200,
  -578379686451551369482078004759956143951079532489398932211022380581847407680449880882661676722687301146156483962882236841034538550,
  -546513193976311273079586333584734953547139879208357336576567230243070704857264988406540797472712581966785545304631327069687681520,
  -513834747560658215522019758498313659415507782003072847241434766323409288279464990832304048218134941423123945300554002084718395060,
  -480392897528448270142662953367969139126263064545441425797877401328720123727082804766145670507111233293260366367058375857484651530,
  -446237328391699056648103024077594496462281065314846790216299631124830153987165863137632838573762031951776317862592283974845583580,
  -411418785034297541686005843022743690701333595053682233094175276413564673665349017005912607195938476952309501593555438766489421760,
  -375988997320331287920516854427329096309614148269496884797803809250370688349347834487206348161463675477396975452915678820226802210,
  -340000603239048339775819437980234867461281512067087402438827297069080422490083691914162719650421326450932492734994943204887203850,
  -303507070700626164551631676357385405292400591400347063874531808744777715244696211509334594925076523685895824428038384084953988360,
  -266562618098935339145502371830308011827037544631206045544084214873614326392617521212205806021496388125784331678770053949921245910,
  -229222133759316105441507310190642313934199724538959919814004933709289973717974852360567392294803986625156968828028198032336180440,
  -191541094391042855739847066208335466946811475231837256373583956311867814910380240200171868942563625248439106597983495017704268170,
  -153575482665630636856788120955432231934526335821132926649022732213686590663238676099759225185218319405726790350771965989635700080,
  -115381704043436711258853860425119554597145362558454075964387107937947495567375150616321369446117307524480739743181943219677997300,
  -77016502972127177318290702765999979273762536003014900105602411942519900446015648530253623535898222611586884243236611529602475955,
  -38536878581511983836485635468657458201125890964803135581303409207118356757900430884516322785849313484290510323572734921445109569,
  0,
  38536878581511983836485635468657458201125890964803135581303409207118356757900430884516322785849313484290510323572734921445109569,
  77016502972127177318290702765999979273762536003014900105602411942519900446015648530253623535898222611586884243236611529602475955,
  115381704043436711258853860425119554597145362558454075964387107937947495567375150616321369446117307524480739743181943219677997300,
  153575482665630636856788120955432231934526335821132926649022732213686590663238676099759225185218319405726790350771965989635700080,
  191541094391042855739847066208335466946811475231837256373583956311867814910380240200171868942563625248439106597983495017704268170,
  229222133759316105441507310190642313934199724538959919814004933709289973717974852360567392294803986625156968828028198032336180440,
  266562618098935339145502371830308011827037544631206045544084214873614326392617521212205806021496388125784331678770053949921245910,
  303507070700626164551631676357385405292400591400347063874531808744777715244696211509334594925076523685895824428038384084953988360,
  340000603239048339775819437980234867461281512067087402438827297069080422490083691914162719650421326450932492734994943204887203850,
  375988997320331287920516854427329096309614148269496884797803809250370688349347834487206348161463675477396975452915678820226802210,
  411418785034297541686005843022743690701333595053682233094175276413564673665349017005912607195938476952309501593555438766489421760,
  446237328391699056648103024077594496462281065314846790216299631124830153987165863137632838573762031951776317862592283974845583580,
  480392897528448270142662953367969139126263064545441425797877401328720123727082804766145670507111233293260366367058375857484651530,
  513834747560658215522019758498313659415507782003072847241434766323409288279464990832304048218134941423123945300554002084718395060,
  546513193976311273079586333584734953547139879208357336576567230243070704857264988406540797472712581966785545304631327069687681520,
  578379686451551369482078004759956143951079532489398932211022380581847407680449880882661676722687301146156483962882236841034538550,
  609386880981936546058807831697927227469022624116158535278123673909416851696108530914180241518814769781337283242928483657983236200,
  639488710221494554644762007346320645292096179116699606559063281144789775218296291352271004127580356337848246410741450973898806900,
  668640451925090146604899187318929071790302326992537951397577076132592250852839178723086907488713407659053100091088306528066267510,
  696798795392435609681860494729900082278403343372081199295273803059411013343781969475423054787391497614048239381984612642032979120,
  723921905815052614443363963353679813824770666426490346603754303873052688133328739929997809920097107154503850752801255844718149440,
  749969486430620672222514710983212076507915912551040417241407194187536461609986503623333140494383964115978329022630913862946026990,
  774902838392423431405637521084296314516255881420080916369532897332276632218607834827181148920239783228238861584327985350414293990,
  798684918265028282157201455006824055637235472391435949446152089299604379699335140365206900080674263537414972196220304831371837120,
  821280393060910223458767880433111904294988540768440942824394536530517597011009264755795765777601216492122120583960211664074925990,
  842655692736467046206712622806980335288174244659569520522771741001075464181880382184263277008610262589855951833706568408839062870,
  862779060069791894673747431885790825375192931346375724111377614572637482654645210293666764784000714180586891494229799683677234650,
  881620597846720146168274251560532501516329842739645212161333782479834543521014130055917717835781646355201859116373347642404608570,
  899152313286156530852665968224606386618062594254364884203794542107337584910540153682290781088233941832742558848790228703212736080,
  915348159640750717289077682140752603206251815698637665914903001869242125743505712408097905161920312399092679008204783065992979310,
  930184074915167503022545555195016011594110610288171471961231649224432585209641943388092597267639621299597516793801267092618913060,
  943638017652813821180581535384817876975760018684290633042928440680095758570021660932307796026254982335609532877929568652778717090,
  955689999756402515248837068806144149503846608832495781256574951743799941876547026501642176572530429497628348829532197968891513070,
  966322116338056111070092156099435864662616559035229799464766164629588373456534554998238019491899193408744651928251549726551560260,
  975518572672361296916253860825913501012896647223709171799873268403969511131344356250423576566974892198501675658654850763748670440,
  983265708566430227219940909949400189273013925622064670940508855959260161498241142090290778545896134999286977604106887262490934960,
  989552021371021999127889387244924439307630825129068852467921819826801572253701536966736237826425453245512039957168010574692550510,
  994368193285219865022676840380476999300702369451743615636805683738989415903906607765124949193965135811768545587228036596669327620,
  997707159988346463657951071070441547323714007946537965601979866548915593667539354637983145410025723224701583662571337601975335900,
  999564703690319034476721091515535435906809487341047639120346374502976050024288185683096419988983764848076256146974243123033088060]

/-- `case 81` (Util/Gauss_Legendre_Nodes_and_Weights.hpp:16660-17068), `weights`. -/
def weights81 : List Nat := [
  1117029847124606606120650365659246612773461171485467781979197931317230032196089017895221967971094500000000000000000000000000000,
  2598622299928953013496788227105023821272062879169160870856461838334278444152495667281146908998168000000000000000000000000000000,
  4078551113421395586020734082556586946390292855611494486098965361157363599405870581511595271438822000000000000000000000000000000,
  5552611370256278902272632649781429688141561489906504935406188244497508661610476926443739707406283000000000000000000000000000000,
  7018460484931625511609951824216363999379295872216840027376640578683825353715496683958408440167330000000000000000000000000000000,
  8473893785345565449615828019839089506296272196766632994385465080161824556982659105856599354975430000000000000000000000000000000,
  9916741809595875499749899789309146312398320532260773663213360133857975194043433014433996403821973000000000000000000000000000000,
  11344858495416255762008172457572386629067081197365364331235777129619652947698458129315043422008638000000000000000000000000000000,
  12756121115134421000256126443977013413243181989311505941410498905403508312716340233395311799590536000000000000000000000000000000,
  14148432513236065548251581020679245064614454357629384062304100481158354240295176564632439532365812000000000000000000000000000000,
  15519723912464362938245239344164129734851464024862790846095060624310993045096745373563088105771578000000000000000000000000000000,
  16867957867635139474334540851592481260345759046294618148452346029832667712033622800472720052239393700000000000000000000000000000,
  18191131241255761151762673856893311191706066482568492489329736425719665855512905033082398556720769200000000000000000000000000000,
  19487278155601918215927050517631316193416958405689091650951507062788504671884837008264781930996839300000000000000000000000000000,
  20754472901445608539522744237972241426680801733125996920603173641788231623726881205905638777236794860000000000000000000000000000,
  21990832792751632770501258435909657927482036423927254600697587989217558831587884544864516402040425740000000000000000000000000000,
  23194520960273919881455328467454829363989700170460422498505502493895544236414083326242961996771695144000000000000000000000000000,
  24363749078563097332491054601002816054625809971693706120986980297355605620741756581135382446177178835200000000000000000000000000,
  25496780021665677069479779060608692522929313214761218220349418494669845779206833460446316216578172251900000000000000000000000000,
  26591930443219921090919794735035373056175539815816645564780191376333697384773581628092273149053559494630000000000000000000000000,
  27647573276924926911086146840112576890098102304443053779944770467835792137004790194598317169992407987873000000000000000000000000,
  28662140153560676225791755448388425852234148122754683168279483209043492852893721199603151415694042335197900000000000000000000000,
  29634123730905597658475192645966964479964695418630715914551691308466509349346190372598217147554442378930400000000000000000000000,
  30562079933052661895659840852220882925637900532890868018205391333362429888284056322326984380930816490102950000000000000000000000,
  31444630095774066418036539144290629557968033480833313295906998069653702454556009074043727474266893241243726000000000000000000000,
  32280463014732688872403232145339010745274449159375918937188083086879730080672980895903413124510157114052444100000000000000000000,
  33068336893488004420875206391892938339813218891620605780296865534410353495702434865399218080271097751441192030000000000000000000,
  33807081188396245551195813496632639365302515512070650221032762176256582415280303282930622863692061687891667480000000000000000000,
  34495598347659795894745528675935646497057630829142970221837570603765683276397572168918977896565808403454730827800000000000000000,
  35132865441939379415979092163716647579345286630401360591543661666799227936549352726551347814519380758111270161740000000000000000,
  35717935684104568530726025999370826232049473539688778222887735037846905057384036600236746861063174092301359020141400000000000000,
  36249939835863412798325781690413998724492624419100295896775056674287751027464463552686946611547117903554380470787430000000000000,
  36728087499180439516905966192114107882751597207297210900047412185972366537970244817797622620590422900000144714125816000000000000,
  37151668290563712144742601639887194383082724661897211993286343225263211018492229074948203521432833965394813303642003100000000000,
  37520052896475837859239244608524097939402224625258203048917154166103245212928284760640134835955179113343309390428225313000000000,
  37832694008300559247575139629384128913399464585015908972788811898912472143776177465715351731000621118376656235412982167000000000,
  38089127135475601831023354437038712998341409746982066126577457084582388494398166827207748271007351250972121147350359403460000000,
  38288971295583524430319989342264263801709855722678966102967892631959034266739661221988803887425554353917370168987157022158800000,
  38431929580375172100256568003527008326050756786055593326355077191976061313466507422496305568662218138043075399269191709589100000,
  38517789596884695237838113833480233926344557893073711804591159276204381657506266010914486233312008562788970142363844032519536300,
  38546423782980703389514075661077367827799792199729095042000926100629686558781848511400184095351830805473851515753831828156240149,
  38517789596884695237838113833480233926344557893073711804591159276204381657506266010914486233312008562788970142363844032519536300,
  38431929580375172100256568003527008326050756786055593326355077191976061313466507422496305568662218138043075399269191709589100000,
  38288971295583524430319989342264263801709855722678966102967892631959034266739661221988803887425554353917370168987157022158800000,
  38089127135475601831023354437038712998341409746982066126577457084582388494398166827207748271007351250972121147350359403460000000,
  37832694008300559247575139629384128913399464585015908972788811898912472143776177465715351731000621118376656235412982167000000000,
  37520052896475837859239244608524097939402224625258203048917154166103245212928284760640134835955179113343309390428225313000000000,
  37151668290563712144742601639887194383082724661897211993286343225263211018492229074948203521432833965394813303642003100000000000,
  36728087499180439516905966192114107882751597207297210900047412185972366537970244817797622620590422900000144714125816000000000000,
  36249939835863412798325781690413998724492624419100295896775056674287751027464463552686946611547117903554380470787430000000000000,
  35717935684104568530726025999370826232049473539688778222887735037846905057384036600236746861063174092301359020141400000000000000,
  35132865441939379415979092163716647579345286630401360591543661666799227936549352726551347814519380758111270161740000000000000000,
  34495598347659795894745528675935646497057630829142970221837570603765683276397572168918977896565808403454730827800000000000000000,
  33807081188396245551195813496632639365302515512070650221032762176256582415280303282930622863692061687891667480000000000000000000,
  33068336893488004420875206391892938339813218891620605780296865534410353495702434865399218080271097751441192030000000000000000000,
  32280463014732688872403232145339010745274449159375918937188083086879730080672980895903413124510157114052444100000000000000000000,
  31444630095774066418036539144290629557968033480833313295906998069653702454556009074043727474266893241243726000000000000000000000,
  30562079933052661895659840852220882925637900532890868018205391333362429888284056322326984380930816490102950000000000000000000000,
  29634123730905597658475192645966964479964695418630715914551691308466509349346190372598217147554442378930400000000000000000000000,
  28662140153560676225791755448388425852234148122754683168279483209043492852893721199603151415694042335197900000000000000000000000,
  27647573276924926911086146840112576890098102304443053779944770467835792137004790194598317169992407987873000000000000000000000000,
  26591930443219921090919794735035373056175539815816645564780191376333697384773581628092273149053559494630000000000000000000000000,
  25496780021665677069479779060608692522929313214761218220349418494669845779206833460446316216578172251900000000000000000000000000,
  24363749078563097332491054601002816054625809971693706120986980297355605620741756581135382446177178835200000000000000000000000000,
  23194520960273919881455328467454829363989700170460422498505502493895544236414083326242961996771695144000000000000000000000000000,
  21990832792751632770501258435909657927482036423927254600697587989217558831587884544864516402040425740000000000000000000000000000,
  20754472901445608539522744237972241426680801733125996920603173641788231623726881205905638777236794860000000000000000000000000000,
  19487278155601918215927050517631316193416958405689091650951507062788504671884837008264781930996839300000000000000000000000000000,
  18191131241255761151762673856893311191706066482568492489329736425719665855512905033082398556720769200000000000000000000000000000,
  16867957867635139474334540851592481260345759046294618148452346029832667712033622800472720052239393700000000000000000000000000000,
  15519723912464362938245239344164129734851464024862790846095060624310993045096745373563088105771578000000000000000000000000000000,
  14148432513236065548251581020679245064614454357629384062304100481158354240295176564632439532365812000000000000000000000000000000,
  12756121115134421000256126443977013413243181989311505941410498905403508312716340233395311799590536000000000000000000000000000000,
  11344858495416255762008172457572386629067081197365364331235777129619652947698458129315043422008638000000000000000000000000000000,
  9916741809595875499749899789309146312398320532260773663213360133857975194043433014433996403821973000000000000000000000000000000,
  8473893785345565449615828019839089506296272196766632994385465080161824556982659105856599354975430000000000000000000000000000000,
  7018460484931625511609951824216363999379295872216840027376640578683825353715496683958408440167330000000000000000000000000000000,
  5552611370256278902272632649781429688141561489906504935406188244497508661610476926443739707406283000000000000000000000000000000,
  4078551113421395586020734082556586946390292855611494486098965361157363599405870581511595271438822000000000000000000000000000000,
  2598622299928953013496788227105023821272062879169160870856461838334278444152495667281146908998168000000000000000000000000000000,
  1117029847124606606120650365659246612773461171485467781979197931317230032196089017895221967971094500000000000000000000000000000]

/-- `case 82` (Util/Gauss_Legendre_Nodes_and_Weights.hpp:17070-17484), `nodes`. -/
def nodes82 : List Int := [
  -999575191501652648874129190535250983081036917180863075233442119583958447113106728692513414725458045577760963587567767661584097950,
  -997762385826385862562358385261417436158255218260849557167850765146756124945736133548013300885073731309809793619593741713605333330,
  -994503768378075628933999775236189465548919152051720587155488233051347967068786080381103245327218768849405089995117957907604980300,
  -989803338839908949932625317261396608983122160925342699873178551757303401610194514433426174032732294626910194841176243522733035110,
  -983667823522007603367888126857244084632201940875534027955182140709706618655037820417936660237539070596214503684210462413967484030,
  -976106097094498828691419767706641542435876033222663776835158004245406665327247198585499662464144014585057047139234329466281108860,
  -967129116252590695996077016681601361301045413297920187034372503462852493155089417724925004871721319497616738547953869509080279140,
  -956749893861610903121799342559577593134969059889408671613387528093275600629143047648029842829544636505872887502375676511015916490,
  -944983477438960489182246024237692754078673906816105429931809742875561704112928389290091223427430097619675152194795440849982057440,
  -931846926454622887854732617574546540652602803899020952899012320640118686639642193404873076793274179363911534970708643422761707680,
  -917359287253280107145761532891843054333368659400557254293455914690403133488369936232632603785866326849563805277016216812276881770,
  -901541565288841258196285005254220258174350845790466370766709027969285207636310449985846180426302539424854956896886246752217756170,
  -884416694596724708227990769085559450923404496457881726755073256607600322412183982404572065033951504275232390174126820167761398850,
  -866009504504765448570684263936116102924951529739427421797195487652447946186197955973251174586522806029636005035210489840064487890,
  -846346683612913701795724335260217893648779664703654293524575709633115513011872934872164571880270421233359447061085337819385140950,
  -825456741085767656028634708875290845534322323109333032778084849105259681566841169944312195891949753741071382189668080084061191230,
  -803369965310108299301882499083462610146539058901299311963865855335971485311873833989659557077641016170757898972458983467000713910,
  -780118379975358245193966739773776514920851857490143160002025896737144214321707001187224917288579328015977984452277757679853524360,
  -755735697639560417297554091220176020628958396553935311313222008601738977135883261252648523415220813333010557327409149630794203720,
  -730257270847596245051693216510415022757991657556966698959745357418766175807204201571504174738702531631514639997128130297670956440,
  -703720040872166678493835628241671930285879698505571518120945167403517388324979409897238298904275955824588163218540265248403463520,
  -676162484151647024565951099540441684045041441445168432301571139737458890576343709297075132444161776128665855605346199263437515190,
  -647624556502346598566311503860792983351082151595061448964696646456469872685878070711612039060867054322520932287215573551004059030,
  -618147635185978682041029999171234429638306980066577944072285457983288446566405105974023617872276876804179344364675222000629505360,
  -587774458916284867153708870468212888749931601553475884367529509210493748347197187301288890132483309852022812402284200736299751780,
  -556549065891763812347321756307151500225031924768716004882813911134771857430557668147123078262313964928263650193730869291368671800,
  -524516729944327767975079464797700034811808078358591020843241491588121585318020883185667139735333996841932975249971619502433601390,
  -491723894896449322463459073148951621528374511194625636849059675103563065859835960883049267384837767409586766878589169429019964010,
  -458218107221963197822863222485324759427228564480061717540295880680599066235523900041425721211873251369888268994176341632847262880,
  -424047947108150722163559277339453409284458297365458224240182338502373658137287809612951010755925403954551366523554306300547876480,
  -389262958019054815921047162555583505642759160337430114946077618117633429014630945602624814098830440643665518661919341217442799050,
  -353913574862147936405394677524792984304512384433421197870729026924854329116973779195548387115314455732398822182084477253756524900,
  -318051050862501505010084338651141180693424202659832777451744208498453771364405512468291981235983299363435665013799384332273952090,
  -281727383250480102368264058032958678714394769166101613201220177621895187844094109458293316024835479123822600828135663473871637870,
  -244995237870704537839176528028221352895894221380402184787580769318928445229645797785265323523794996404180765784787608025306781180,
  -207907872821592350966229177877640381456459914311565017406085184090296911346405165337919805299601708110808657187708212559154040230,
  -170519061236190159767099366920433413716264081537019473451051448496577227505954512545290454714665349014170311540699674224988838280,
  -132883013316257525764813562136429148521714149822781589498984782603391169294042682371224010267672172163845879388479180667130932420,
  -95054297732644873952886740920385673710245387752280281763285919037236168055298522836221477508912833666355055222945925270390460465,
  -57087762505926931902959679220664851727348968782869407586391109348769623890037407200276957070633866559526742726423129707279274431,
  -19038455482006813761454678613195374687777555732749719101653807142839521349911852200507220164063992161320654109361802748156609733,
  19038455482006813761454678613195374687777555732749719101653807142839521349911852200507220164063992161320654109361802748156609733,
  57087762505926931902959679220664851727348968782869407586391109348769623890037407200276957070633866559526742726423129707279274431,
  95054297732644873952886740920385673710245387752280281763285919037236168055298522836221477508912833666355055222945925270390460465,
  132883013316257525764813562136429148521714149822781589498984782603391169294042682371224010267672172163845879388479180667130932420,
  170519061236190159767099366920433413716264081537019473451051448496577227505954512545290454714665349014170311540699674224988838280,
  207907872821592350966229177877640381456459914311565017406085184090296911346405165337919805299601708110808657187708212559154040230,
  244995237870704537839176528028221352895894221380402184787580769318928445229645797785265323523794996404180765784787608025306781180,
  281727383250480102368264058032958678714394769166101613201220177621895187844094109458293316024835479123822600828135663473871637870,
  318051050862501505010084338651141180693424202659832777451744208498453771364405512468291981235983299363435665013799384332273952090,
  353913574862147936405394677524792984304512384433421197870729026924854329116973779195548387115314455732398822182084477253756524900,
  389262958019054815921047162555583505642759160337430114946077618117633429014630945602624814098830440643665518661919341217442799050,
  424047947108150722163559277339453409284458297365458224240182338502373658137287809612951010755925403954551366523554306300547876480,
  458218107221963197822863222485324759427228564480061717540295880680599066235523900041425721211873251369888268994176341632847262880,
  491723894896449322463459073148951621528374511194625636849059675103563065859835960883049267384837767409586766878589169429019964010,
  524516729944327767975079464797700034811808078358591020843241491588121585318020883185667139735333996841932975249971619502433601390,
  556549065891763812347321756307151500225031924768716004882813911134771857430557668147123078262313964928263650193730869291368671800,
  587774458916284867153708870468212888749931601553475884367529509210493748347197187301288890132483309852022812402284200736299751780,
  618147635185978682041029999171234429638306980066577944072285457983288446566405105974023617872276876804179344364675222000629505360,
  647624556502346598566311503860792983351082151595061448964696646456469872685878070711612039060867054322520932287215573551004059030,
  676162484151647024565951099540441684045041441445168432301571139737458890576343709297075132444161776128665855605346199263437515190,
  703720040872166678493835628241671930285879698505571518120945167403517388324979409897238298904275955824588163218540265248403463520,
  730257270847596245051693216510415022757991657556966698959745357418766175807204201571504174738702531631514639997128130297670956440,
  755735697639560417297554091220176020628958396553935311313222008601738977135883261252648523415220813333010557327409149630794203720,
  780118379975358245193966739773776514920851857490143160002025896737144214321707001187224917288579328015977984452277757679853524360,
  803369965310108299301882499083462610146539058901299311963865855335971485311873833989659557077641016170757898972458983467000713910,
  825456741085767656028634708875290845534322323109333032778084849105259681566841169944312195891949753741071382189668080084061191230,
  846346683612913701795724335260217893648779664703654293524575709633115513011872934872164571880270421233359447061085337819385140950,
  866009504504765448570684263936116102924951529739427421797195487652447946186197955973251174586522806029636005035210489840064487890,
  884416694596724708227990769085559450923404496457881726755073256607600322412183982404572065033951504275232390174126820167761398850,
  901541565288841258196285005254220258174350845790466370766709027969285207636310449985846180426302539424854956896886246752217756170,
  917359287253280107145761532891843054333368659400557254293455914690403133488369936232632603785866326849563805277016216812276881770,
  931846926454622887854732617574546540652602803899020952899012320640118686639642193404873076793274179363911534970708643422761707680,
  944983477438960489182246024237692754078673906816105429931809742875561704112928389290091223427430097619675152194795440849982057440,
  956749893861610903121799342559577593134969059889408671613387528093275600629143047648029842829544636505872887502375676511015916490,
  967129116252590695996077016681601361301045413297920187034372503462852493155089417724925004871721319497616738547953869509080279140,
  976106097094498828691419767706641542435876033222663776835158004245406665327247198585499662464144014585057047139234329466281108860,
  983667823522007603367888126857244084632201940875534027955182140709706618655037820417936660237539070596214503684210462413967484030,
  989803338839908949932625317261396608983122160925342699873178551757303401610194514433426174032732294626910194841176243522733035110,
  994503768378075628933999775236189465548919152051720587155488233051347967068786080381103245327218768849405089995117957907604980300,
  997762385826385862562358385261417436158255218260849557167850765146756124945736133548013300885073731309809793619593741713605333330,
  999575191501652648874129190535250983081036917180863075233442119583958447113106728692513414725458045577760963587567767661584097950]

/-- `case 82` (Util/Gauss_Legendre_Nodes_and_Weights.hpp:17070-17484), `weights`. -/
def weights82 : List Nat := [
  1090118595275830866107191538239994319233606887933083803789156222436359374336867660004267319310699800000000000000000000000000000,
  2536054696856106109821753850981028122033899999332283172006280228582578494691557457518863191825646000000000000000000000000000000,
  3980457937856074619028846734134143751416617734124429324725380124021977272050838037837121124106710000000000000000000000000000000,
  5419276232446765090704579733704734589605990887298259398506741452909267058015302611368229865791680000000000000000000000000000000,
  6850274534183526184326264510047096742313402779930381063662689007024994282366551898067960896158770000000000000000000000000000000,
  8271351818383685604430382706656051432031982865127712206256187230280528248991924745638393884388870000000000000000000000000000000,
  9680440704371073736965494314108632565939827676632052407184161241443841014469185214707535451437420000000000000000000000000000000,
  11075495781759896320225054964658325431408101630203015241448923062156918208363847392805692899035830000000000000000000000000000000,
  12454493401142104679733616501005968761081730495159673052492810964312609259458966796190366470998900000000000000000000000000000000,
  13815433714126459387727683686558922772954765450000534422443020641467705205330567904209979522902051000000000000000000000000000000,
  15156343270762561788468952812076432461047358437647567422738106548918116409729247211505171081115428000000000000000000000000000000,
  16475277763983708891012236608205703807961630674769130332387527362196929679639100799031341157846812000000000000000000000000000000,
  17770324798498407146981968125793512786383061060064316356989362766059388783461226728023376017161489600000000000000000000000000000,
  19039606640178925073039364591411879161788884743961151785142428395150982741637820372949453746452079100000000000000000000000000000,
  20281282926912158901570679670679972554757520663358416190550225795555603059739366700062172187304145480000000000000000000000000000,
  21493553330774844043489663808120621554271080822857705998185576450559787594031227484987029958409960550000000000000000000000000000,
  22674660164914103102441983017802235234491081240955253106982600872619433861828524107188113344555714086000000000000000000000000000,
  23822890930047826342227084974711469561494827304992942556042274803176224784746848184388977884643567530000000000000000000000000000,
  24936580796240755155772228285557895790896723954245383998576428204825118877264589649776686189486769674600000000000000000000000000,
  26014115016017023753868523109949822331072067389529557740561503363610960347045161398740890125955356932890000000000000000000000000,
  27053931265124771519786796662312821064658013854303525558131243245893319414298799791068208485557625607230000000000000000000000000,
  28054521907454230471713975332737216783139589905028629146083713630822806492292714681470961840862517202393000000000000000000000000,
  29014436180764403961453030061337084717529255380522039057423853023822714951395063098696433354986568221007200000000000000000000000,
  29932282300012724635085961982618751290204871307535516921665980466316046056996442559095263190369286827910260000000000000000000000,
  30806729475215629813667882788313931059472167720342802983112786780358132148107694538567531889732578168179439000000000000000000000,
  31636509840900245537623324322074852287729207107171155053189638238126817020725312022141213632604699091218484700000000000000000000,
  32420420294340605077836407826424968729869506030886830322903698312789650456321279264286558289149838351059230960000000000000000000,
  33157324239907211327758384403324781478770950466820162759503280359063740380779384325689682324926515432581117656000000000000000000,
  33846153236996858744636562132266718363604362417383074381223567475993793002327730343993654383484500264730213692900000000000000000,
  34485908549150705507378806965591976965947269745859331125742549746235062848216415613762167796332926974754148305240000000000000000,
  35075662592112690384780305774713355831578066810762488657971881122348818397206242276519839240011163240254474040632000000000000000,
  35614560278727472680495915259449021197403669266973391278604390131524097831465908482186373088496538408314738914625500000000000000,
  36101820258727023075695522521337675670320013578344995774532898575355942799209724231318728678456204045096389973344670000000000000,
  36536736051607652842197732825268751140148088113325847329299831865357366641429784199564993425672584734230816341093154200000000000,
  36918677070954456998531672832132946179381027386508478729381825029408692805450644743455776268033312441661675357974422010000000000,
  37247089538727664187840036070236711560005683672699763289070454289422534151910806899797766498608400450696786566866872174000000000,
  37521497288185020871574071980700741214227655807594569719353049889985782653034668919439894658383752793566128397938023007410000000,
  37741502454275869671537038631027486496851362939714519555357506203968405997308524827735023331767084972401200268744223157412000000,
  37906786050505784779464226021963930561830976217685707682672167672023891374843276474418782623368434491198606587327587054997560000,
  38017108431435269905302774236090448104875681405781102761584455021950520137713112430920245457209516383731020028136872796015633000,
  38072309640141871207696017825671385570268418166633218332519844181922539881767747920869279223098039825123515279796797002189294930,
  38072309640141871207696017825671385570268418166633218332519844181922539881767747920869279223098039825123515279796797002189294930,
  38017108431435269905302774236090448104875681405781102761584455021950520137713112430920245457209516383731020028136872796015633000,
  37906786050505784779464226021963930561830976217685707682672167672023891374843276474418782623368434491198606587327587054997560000,
  37741502454275869671537038631027486496851362939714519555357506203968405997308524827735023331767084972401200268744223157412000000,
  37521497288185020871574071980700741214227655807594569719353049889985782653034668919439894658383752793566128397938023007410000000,
  37247089538727664187840036070236711560005683672699763289070454289422534151910806899797766498608400450696786566866872174000000000,
  36918677070954456998531672832132946179381027386508478729381825029408692805450644743455776268033312441661675357974422010000000000,
  36536736051607652842197732825268751140148088113325847329299831865357366641429784199564993425672584734230816341093154200000000000,
  36101820258727023075695522521337675670320013578344995774532898575355942799209724231318728678456204045096389973344670000000000000,
  35614560278727472680495915259449021197403669266973391278604390131524097831465908482186373088496538408314738914625500000000000000,
  35075662592112690384780305774713355831578066810762488657971881122348818397206242276519839240011163240254474040632000000000000000,
  34485908549150705507378806965591976965947269745859331125742549746235062848216415613762167796332926974754148305240000000000000000,
  33846153236996858744636562132266718363604362417383074381223567475993793002327730343993654383484500264730213692900000000000000000,
  33157324239907211327758384403324781478770950466820162759503280359063740380779384325689682324926515432581117656000000000000000000,
  32420420294340605077836407826424968729869506030886830322903698312789650456321279264286558289149838351059230960000000000000000000,
  31636509840900245537623324322074852287729207107171155053189638238126817020725312022141213632604699091218484700000000000000000000,
  30806729475215629813667882788313931059472167720342802983112786780358132148107694538567531889732578168179439000000000000000000000,
  29932282300012724635085961982618751290204871307535516921665980466316046056996442559095263190369286827910260000000000000000000000,
  29014436180764403961453030061337084717529255380522039057423853023822714951395063098696433354986568221007200000000000000000000000,
  28054521907454230471713975332737216783139589905028629146083713630822806492292714681470961840862517202393000000000000000000000000,
  27053931265124771519786796662312821064658013854303525558131243245893319414298799791068208485557625607230000000000000000000000000,
  26014115016017023753868523109949822331072067389529557740561503363610960347045161398740890125955356932890000000000000000000000000,
  24936580796240755155772228285557895790896723954245383998576428204825118877264589649776686189486769674600000000000000000000000000,
  23822890930047826342227084974711469561494827304992942556042274803176224784746848184388977884643567530000000000000000000000000000,
  22674660164914103102441983017802235234491081240955253106982600872619433861828524107188113344555714086000000000000000000000000000,
  21493553330774844043489663808120621554271080822857705998185576450559787594031227484987029958409960550000000000000000000000000000,
  20281282926912158901570679670679972554757520663358416190550225795555603059739366700062172187304145480000000000000000000000000000,
  19039606640178925073039364591411879161788884743961151785142428395150982741637820372949453746452079100000000000000000000000000000,
  17770324798498407146981968125793512786383061060064316356989362766059388783461226728023376017161489600000000000000000000000000000,
  16475277763983708891012236608205703807961630674769130332387527362196929679639100799031341157846812000000000000000000000000000000,
  15156343270762561788468952812076432461047358437647567422738106548918116409729247211505171081115428000000000000000000000000000000,
  13815433714126459387727683686558922772954765450000534422443020641467705205330567904209979522902051000000000000000000000000000000,
  12454493401142104679733616501005968761081730495159673052492810964312609259458966796190366470998900000000000000000000000000000000,
  11075495781759896320225054964658325431408101630203015241448923062156918208363847392805692899035830000000000000000000000000000000,
  9680440704371073736965494314108632565939827676632052407184161241443841014469185214707535451437420000000000000000000000000000000,
  8271351818383685604430382706656051432031982865127712206256187230280528248991924745638393884388870000000000000000000000000000000,
  6850274534183526184326264510047096742313402779930381063662689007024994282366551898067960896158770000000000000000000000000000000,
  5419276232446765090704579733704734589605990887298259398506741452909267058015302611368229865791680000000000000000000000000000000,
  3980457937856074619028846734134143751416617734124429324725380124021977272050838037837121124106710000000000000000000000000000000,
  2536054696856106109821753850981028122033899999332283172006280228582578494691557457518863191825646000000000000000000000000000000,
  1090118595275830866107191538239994319233606887933083803789156222436359374336867660004267319310699800000000000000000000000000000]

/-- `case 83` (Util/Gauss_Legendre_Nodes_and_Weights.hpp:17486-17904), `nodes`. -/
def nodes83 : List Int := [
  -999585304807049343812604479811704835944572799856613550772060896747497806120479517930801949455363246722649652736057991885375734190,
  -997815640403429961756266273637745524427507816254882028842692907508494490786842302746630841918184854831741768467927458975198805610,
  -994634507631780323407966478826055559037071023433838434754146758224651264462655770566313010760000537396056556063687653041009608740,
  -990045701297265222772328057225512439088831027390690425675816322262956659114864157077127448107951952602543051493686048143917272890,
  -984055629596681471537066851699230729588099873062654272065976697528979796160275269868262763879183512770395733957623783528262893550,
  -976672750072842934232187870211190741212806053965758311504812279792995679962078537189456766992040837288820411269002976456058282760,
  -967907505450128729547014851893800133768508785146304657403685928044566861939014843418482666207751645517057765653918470806572699260,
  -957772299122767105961511740153088049085772463550661346885892970275972428052325321933085443011640581789496989767942119419546263880,
  -946281475011790874442295256371980327303829346330153813442931606649202820578473909007538135009992302767205916662268895525677391210,
  -933451296401838619235679773572839778659517293133588728794145954319699053042586857145486345774326339559485248873939206133125253670,
  -919299922587207943780996219175625575382509739615071748488102528110141710789307652914496554874387978824261077213693433602092101210,
  -903847383022899508081720680359423051782922927439914210534533370652454626979096311905507744198779484061933404816483571650262441900,
  -887115548905063340740519411797588216942025725382058273504655156105436830269121577164102570555936628665878398293656575177297770830,
  -869128102178716983499116049039934332225791105632660957598025474224064242319897610516849323219294032291019101622074648659063098880,
  -849910501998933797338429363277848299021815929626533651581392175143797378180008846302919034555855786320695087709797969044640214660,
  -829489948684984276401755416171470636429821283070576040459729851768251182915003923167629324169850297657415867445574191898597833350,
  -807895345214589632297864886204047175629929995243333384741426912672057040060355406570383498154769657782644248770492842337487589760,
  -785157256310815840287636163601969481403926298420547540407252124190271018974625382789855294917989143242995190023915858887983326420,
  -761307865178458740719255283826584159577784712548478550852140935759775615253713926344286513695738696316951410733010222678068056640,
  -736380927950564267407382317424284003406334799195314592950947655983841739642239155908265419795108128687239475851956028878570292770,
  -710411725909217464480457649145998864587317855878930380379719999499497073790695215663681562209154467583913052088439371938184714220,
  -683437015548021780255840789565324548063012486648464172869623568789704894039463590482754831433291608458575788659614369668559267430,
  -655494976546823717483086336568517471216227211222936226870050646114753975044112268934433107923572772172127057075530401017373783940,
  -626625157732239358494922932206761611950185051157995771763936935181647109624031251409331316679641480898070074375639642787745205080,
  -596868421100418312391830576789260887695360486324907700346378534252480435845248585651251213888542208599193448560206460337836271160,
  -566266883981240803007683851598942951931953028852008196675519681381569398397916587728774609592157935703794487821822292540267654660,
  -534863859425785310580242847526897575482966881018213522702112913842420125650013640393991168250805243814045386829956755588372378900,
  -502703794901426132021111193520837839441864976929869633684348298200162217957672881524535681751757028687100360429070108506069878000,
  -469832209381320328717450207074953698112667649907262861817702681976579558354812777298051017685899639681188465907864529152742465230,
  -436295628917319275485497472310187925631329192834245564046914319713788298798430923420472234441187533154665912918049917463704914320,
  -402141520787488735564028835804112841975765684033220595252665847082454563593202275587876945185551344043392663954427224000093033170,
  -367418226311440367401592804394160884390333773690930974146076111344798585221593455234320666366277818609653407456222131601810460940,
  -332174892428564182315161995735882718825207201588248065801000313697679931347191126049614736660433788659522484772457555361000558600,
  -296461402136003191110713260687941943504475685970901896699371938700303309022576879586521964387254277371680100664672537189530312040,
  -260328303884825917912495782485382383856082793553216594409735432694196824460120970023677073321654561088307226743588899005645530130,
  -223826740034327399193191872608188168693787522148502245835659243571308379831129926204969574829420032615752676401811320538397589120,
  -187008374465722680789553368793413314351081704243831874161883053055333861704551286716707162108931358917538985569133993498518338420,
  -149925319457686817796109061778142702420939086258807231581346078471280599594807070003100309113167136618564082601302157719327819990,
  -112630061927240307807978465143760507617552744792702954824011301746904328150534671441884795223908702534364123529684196042411481140,
  -75175389140377282326813856488743640496964727707544817910821896949183778206169518620565435258746439923996241005514178566157841465,
  -37614313997584382667578704669332105216880328769104202496495645591927480622266018999157309336490375451837096089309810520708643056,
  0,
  37614313997584382667578704669332105216880328769104202496495645591927480622266018999157309336490375451837096089309810520708643056,
  75175389140377282326813856488743640496964727707544817910821896949183778206169518620565435258746439923996241005514178566157841465,
  112630061927240307807978465143760507617552744792702954824011301746904328150534671441884795223908702534364123529684196042411481140,
  149925319457686817796109061778142702420939086258807231581346078471280599594807070003100309113167136618564082601302157719327819990,
  187008374465722680789553368793413314351081704243831874161883053055333861704551286716707162108931358917538985569133993498518338420,
  223826740034327399193191872608188168693787522148502245835659243571308379831129926204969574829420032615752676401811320538397589120,
  260328303884825917912495782485382383856082793553216594409735432694196824460120970023677073321654561088307226743588899005645530130,
  296461402136003191110713260687941943504475685970901896699371938700303309022576879586521964387254277371680100664672537189530312040,
  332174892428564182315161995735882718825207201588248065801000313697679931347191126049614736660433788659522484772457555361000558600,
  367418226311440367401592804394160884390333773690930974146076111344798585221593455234320666366277818609653407456222131601810460940,
  402141520787488735564028835804112841975765684033220595252665847082454563593202275587876945185551344043392663954427224000093033170,
  436295628917319275485497472310187925631329192834245564046914319713788298798430923420472234441187533154665912918049917463704914320,
  469832209381320328717450207074953698112667649907262861817702681976579558354812777298051017685899639681188465907864529152742465230,
  502703794901426132021111193520837839441864976929869633684348298200162217957672881524535681751757028687100360429070108506069878000,
  534863859425785310580242847526897575482966881018213522702112913842420125650013640393991168250805243814045386829956755588372378900,
  566266883981240803007683851598942951931953028852008196675519681381569398397916587728774609592157935703794487821822292540267654660,
  596868421100418312391830576789260887695360486324907700346378534252480435845248585651251213888542208599193448560206460337836271160,
  626625157732239358494922932206761611950185051157995771763936935181647109624031251409331316679641480898070074375639642787745205080,
  655494976546823717483086336568517471216227211222936226870050646114753975044112268934433107923572772172127057075530401017373783940,
  683437015548021780255840789565324548063012486648464172869623568789704894039463590482754831433291608458575788659614369668559267430,
  710411725909217464480457649145998864587317855878930380379719999499497073790695215663681562209154467583913052088439371938184714220,
  736380927950564267407382317424284003406334799195314592950947655983841739642239155908265419795108128687239475851956028878570292770,
  761307865178458740719255283826584159577784712548478550852140935759775615253713926344286513695738696316951410733010222678068056640,
  785157256310815840287636163601969481403926298420547540407252124190271018974625382789855294917989143242995190023915858887983326420,
  807895345214589632297864886204047175629929995243333384741426912672057040060355406570383498154769657782644248770492842337487589760,
  829489948684984276401755416171470636429821283070576040459729851768251182915003923167629324169850297657415867445574191898597833350,
  849910501998933797338429363277848299021815929626533651581392175143797378180008846302919034555855786320695087709797969044640214660,
  869128102178716983499116049039934332225791105632660957598025474224064242319897610516849323219294032291019101622074648659063098880,
  887115548905063340740519411797588216942025725382058273504655156105436830269121577164102570555936628665878398293656575177297770830,
  903847383022899508081720680359423051782922927439914210534533370652454626979096311905507744198779484061933404816483571650262441900,
  919299922587207943780996219175625575382509739615071748488102528110141710789307652914496554874387978824261077213693433602092101210,
  933451296401838619235679773572839778659517293133588728794145954319699053042586857145486345774326339559485248873939206133125253670,
  946281475011790874442295256371980327303829346330153813442931606649202820578473909007538135009992302767205916662268895525677391210,
  957772299122767105961511740153088049085772463550661346885892970275972428052325321933085443011640581789496989767942119419546263880,
  967907505450128729547014851893800133768508785146304657403685928044566861939014843418482666207751645517057765653918470806572699260,
  976672750072842934232187870211190741212806053965758311504812279792995679962078537189456766992040837288820411269002976456058282760,
  984055629596681471537066851699230729588099873062654272065976697528979796160275269868262763879183512770395733957623783528262893550,
  990045701297265222772328057225512439088831027390690425675816322262956659114864157077127448107951952602543051493686048143917272890,
  994634507631780323407966478826055559037071023433838434754146758224651264462655770566313010760000537396056556063687653041009608740,
  997815640403429961756266273637745524427507816254882028842692907508494490786842302746630841918184854831741768467927458975198805610,
  999585304807049343812604479811704835944572799856613550772060896747497806120479517930801949455363246722649652736057991885375734190]

/-- `case 83` (Util/Gauss_Legendre_Nodes_and_Weights.hpp:17486-17904), `weights`. -/
def weights83 : List Nat := [
  1064168219666567756380752482602117296069480373461374732752890450986083991232764037935447005074877000000000000000000000000000000,
  2475719322545939743328765109639753791394017894689841884864435679078628804325637387664593038054390000000000000000000000000000000,
  3885859435353202192002502470041409505102147244071581834415909247737590795828616086121879921130630000000000000000000000000000000,
  5290681445859865555238499450369974933476581576055432857357746238778295382669183458896265476525070000000000000000000000000000000,
  6688051635243685741356752925720321539736914240441231757629830548052597993975413983733758361937960000000000000000000000000000000,
  8075966593123452283593051343635067727223194428524930195019597729541294430719207929963351004752170000000000000000000000000000000,
  9452455092479699888243016521168664562726197204795071615588716337458509746766865016793560229832130000000000000000000000000000000,
  10815566558037158720361261390279601155165043867670222248171090570455561139779571573765404671371260000000000000000000000000000000,
  12163370727798612063033263726873261421449078112374859158774045442244341443085713212170696158721870000000000000000000000000000000,
  13493959512375234980699549624698223739384285867478981451934825522793959244785656773248855209194130000000000000000000000000000000,
  14805449400717877680849429259239901456991513407836997506479892867175454228012373286542844405737495000000000000000000000000000000,
  16095984011935370915438071294665775059713373981786924528755903607550868688287470816811722150251536000000000000000000000000000000,
  17363736673824622350165611499471561522479149451554189376422602738597389812759138382705508314130572000000000000000000000000000000,
  18606912985478472841667748598225846003126862934262847065193290248665095993663977291149266149363489200000000000000000000000000000,
  19823753345654939049312049458480323314251520694842708109593903853801677153270101704962724783108622700000000000000000000000000000,
  21012535437269917874009344999865549854533943525768043156533257526151242232140714202273279761530167500000000000000000000000000000,
  22171576661803622621990441151735345911634711890145644061999868469550314719286266459512581852862382890000000000000000000000000000,
  23299236518900549370160963607473872806158218905915058001119306117816387190237212966459252222343184261000000000000000000000000000,
  24393918927158557497434207686591636896091354818196875804815895674816286752012622123734702822244991795000000000000000000000000000,
  25454074482489496750818169047053756183273574742348412643879453583976732425469935522627784816099739289700000000000000000000000000,
  26478202650673762485108612139007296365718015029649388823258861603797559048870697438112457688399129517260000000000000000000000000,
  27464853890903261238928034627164328824556587050567780872756110256284809026530265590070283077443400740064000000000000000000000000,
  28412631707247641563750739732208214023446521539668816317637710248175395669259409150187330499433795336666000000000000000000000000,
  29320194625104527918041392776318539070513091361821837171705250902706403511196174262853183402383106338296900000000000000000000000,
  30186258089814417054101741935957664658832805094591723018890953420588382580519945883048073625317456245320270000000000000000000000,
  31009596284739194843067045617185890268395537794672073108849915614809117390182813914870709740795561918786244000000000000000000000,
  31789043866222150643548755560391005184441247927025845327129844689380755112909166752301662134091031282033511400000000000000000000,
  32523497612968065991291155247975194434819801039874561375151832208669583193617857137676762553121946625951274610000000000000000000,
  33211917987505015181173251626118195625877558419118195150540049661744362875713526940867879642116848853136133515000000000000000000,
  33853330607515198699309942311928117941633171909699583346378573944793737554641249594180881456915413203927467639200000000000000000,
  34446827624950516832521913767534540921511477343742727848541916538654357664156484665353458041283136280243423184110000000000000000,
  34991569010979654731524615293351377254369228819740461184374135950334781477226630335062766475316656854925480237606800000000000000,
  35486783744947102645843243242045213491536945160685284252062894617283316511373307192003826904349793046607965677321320000000000000,
  35931770905660647347330745694088244274249201411055047805184179452406150713747196810931197457576382285325968235285839000000000000,
  36325900663462288899895809248245377567072475897148987315411342931981977871859704980719883920071107914954437385728685600000000000,
  36668615171678090043900644207245926139519122238643638703648901213791701708834244219054142717311652223364265691483116520000000000,
  36959429356184971079757986402055718100898181405110123687649702417287315777158419258624237705417445538859214383385411173800000000,
  37197931601976730544001270740192246507462513254063531243225914001993081461574232673770287414848338208413092421186698210430000000,
  37383784335757404410917595596342781522757371968704488600286993350655647226438551506654687267418623005050444707513153120179400000,
  37516724503737272715057643337492234769256721370836490108077439986752687671889560791741024123132602440428902548533278898928930000,
  37596563943955177591969344309191882120130079911027337926450457477909623704064034101400441782648938369593027489232645706635911100,
  37623189652600123325750129880256092506042357780661697642969114109541880159856169166882688032681914695312262678462587489116353428,
  37596563943955177591969344309191882120130079911027337926450457477909623704064034101400441782648938369593027489232645706635911100,
  37516724503737272715057643337492234769256721370836490108077439986752687671889560791741024123132602440428902548533278898928930000,
  37383784335757404410917595596342781522757371968704488600286993350655647226438551506654687267418623005050444707513153120179400000,
  37197931601976730544001270740192246507462513254063531243225914001993081461574232673770287414848338208413092421186698210430000000,
  36959429356184971079757986402055718100898181405110123687649702417287315777158419258624237705417445538859214383385411173800000000,
  36668615171678090043900644207245926139519122238643638703648901213791701708834244219054142717311652223364265691483116520000000000,
  36325900663462288899895809248245377567072475897148987315411342931981977871859704980719883920071107914954437385728685600000000000,
  35931770905660647347330745694088244274249201411055047805184179452406150713747196810931197457576382285325968235285839000000000000,
  35486783744947102645843243242045213491536945160685284252062894617283316511373307192003826904349793046607965677321320000000000000,
  34991569010979654731524615293351377254369228819740461184374135950334781477226630335062766475316656854925480237606800000000000000,
  34446827624950516832521913767534540921511477343742727848541916538654357664156484665353458041283136280243423184110000000000000000,
  33853330607515198699309942311928117941633171909699583346378573944793737554641249594180881456915413203927467639200000000000000000,
  33211917987505015181173251626118195625877558419118195150540049661744362875713526940867879642116848853136133515000000000000000000,
  32523497612968065991291155247975194434819801039874561375151832208669583193617857137676762553121946625951274610000000000000000000,
  31789043866222150643548755560391005184441247927025845327129844689380755112909166752301662134091031282033511400000000000000000000,
  31009596284739194843067045617185890268395537794672073108849915614809117390182813914870709740795561918786244000000000000000000000,
  30186258089814417054101741935957664658832805094591723018890953420588382580519945883048073625317456245320270000000000000000000000,
  29320194625104527918041392776318539070513091361821837171705250902706403511196174262853183402383106338296900000000000000000000000,
  28412631707247641563750739732208214023446521539668816317637710248175395669259409150187330499433795336666000000000000000000000000,
  27464853890903261238928034627164328824556587050567780872756110256284809026530265590070283077443400740064000000000000000000000000,
  26478202650673762485108612139007296365718015029649388823258861603797559048870697438112457688399129517260000000000000000000000000,
  25454074482489496750818169047053756183273574742348412643879453583976732425469935522627784816099739289700000000000000000000000000,
  24393918927158557497434207686591636896091354818196875804815895674816286752012622123734702822244991795000000000000000000000000000,
  23299236518900549370160963607473872806158218905915058001119306117816387190237212966459252222343184261000000000000000000000000000,
  22171576661803622621990441151735345911634711890145644061999868469550314719286266459512581852862382890000000000000000000000000000,
  21012535437269917874009344999865549854533943525768043156533257526151242232140714202273279761530167500000000000000000000000000000,
  19823753345654939049312049458480323314251520694842708109593903853801677153270101704962724783108622700000000000000000000000000000,
  18606912985478472841667748598225846003126862934262847065193290248665095993663977291149266149363489200000000000000000000000000000,
  17363736673824622350165611499471561522479149451554189376422602738597389812759138382705508314130572000000000000000000000000000000,
  16095984011935370915438071294665775059713373981786924528755903607550868688287470816811722150251536000000000000000000000000000000,
  14805449400717877680849429259239901456991513407836997506479892867175454228012373286542844405737495000000000000000000000000000000,
  13493959512375234980699549624698223739384285867478981451934825522793959244785656773248855209194130000000000000000000000000000000,
  12163370727798612063033263726873261421449078112374859158774045442244341443085713212170696158721870000000000000000000000000000000,
  10815566558037158720361261390279601155165043867670222248171090570455561139779571573765404671371260000000000000000000000000000000,
  9452455092479699888243016521168664562726197204795071615588716337458509746766865016793560229832130000000000000000000000000000000,
  8075966593123452283593051343635067727223194428524930195019597729541294430719207929963351004752170000000000000000000000000000000,
  6688051635243685741356752925720321539736914240441231757629830548052597993975413983733758361937960000000000000000000000000000000,
  5290681445859865555238499450369974933476581576055432857357746238778295382669183458896265476525070000000000000000000000000000000,
  3885859435353202192002502470041409505102147244071581834415909247737590795828616086121879921130630000000000000000000000000000000,
  2475719322545939743328765109639753791394017894689841884864435679078628804325637387664593038054390000000000000000000000000000000,
  1064168219666567756380752482602117296069480373461374732752890450986083991232764037935447005074877000000000000000000000000000000]

/-- `case 84` (Util/Gauss_Legendre_Nodes_and_Weights.hpp:17906-18330), `nodes`. -/
def nodes84 : List Int := [
  -999595061226923242204747258251234425958700507449560769150608829654815567739995317174059051873463263810567316282416682317982616750,
  -997867016421711961561418965783363048995245214749477667041650101579775336183753357308169908783677375399875232166752749323828103300,
  -994760638261284641195837406212398265863948982125494602199896163155978903088391735476185419225645465282175082475634960839659378940,
  -990279528965356687334215897571651334276547736271380409922156128566531866060063900888313562846561317215845678154580153717450602340,
  -984429797127581651519074993626654564509877016777782529464718444584243420309670439501990466211776553667874557992457712740990118270,
  -977219507358315782654300664267100950473858714486669985060664760273658815294370784922005249860864545539409768851967108021228815470,
  -968658618173621897690627907168918638103335056128446584144396488000719015221986894995819797093238965400108874803647365045628280010,
  -958758958729693472019949185677910335804571748516776532502611400252861703858242698350151549077922255887361817544202421721495473320,
  -947534209947443122811275741168411874743128984853046247418533612226815521919822905898577501999757070677034212784502724863030961760,
  -934999884763558817752400569091661324507238305735699621025193526573719233052553224847934813074840383848185121544108977875058472400,
  -921173306363051217727206729807140741351429336208602232262302659724065964315024208640371958026544652789741491306882574651058671830,
  -906073584094008421339975508645814779774834929280339517609621755862210826631472301544316611353017242691867706433914287204280557240,
  -889721586988315460803939462826577771143721736012543045070728835449628224176407969680768654069169338777681462908923322341573212190,
  -872139914883579032029810582828381729882569824247594416578211788777072082614048048296506787596979070363453683072848447373876178740,
  -853352867168918661598740836440584305875964049917376289514449345827154944071314146435852257641033792806999677173328679756166010710,
  -833386409190021428846052446606800827151972951153726152412858521354479883990961159163556883461962975650662093146916916395317488660,
  -812268136356123039022937870542735356189774657361849252681088627890768080207483977675624638228418013850094151323429262155585570390,
  -790027235996596867967737656856101778573804340167762539222928443583413445843167187860183457105043839454332820938870485812520385570,
  -766694447018836282666900185380416642103496557875208931541909252768412540746107614463688364724264517583237144222709517694111912550,
  -742302017422609920773521739617602544086576867813144264056672765391500610683891047759815085714152061512323300398966624451203034050,
  -716883659729274823822882252870558821096409044976779281355567977981472744088538122940785080556321321730416229686771679021170977690,
  -690474504387248471220307205020714539379586217769685683297812733657158510355726566934427194391912655487579196061634055715466686970,
  -663111051218014634336199142606922515016037183756992726141685301015183555806836314978416332353744607192904065266640679024637939430,
  -634831118969691483644014248840422564411342075375014151866917681058624472664802614997227802311730400638262643548847322324255576540,
  -605673793047833389684268721807679839509576446995627833747075319896749510409741414109368144557020541343035766716573878439791797810,
  -575679371495674156041915893775171521867946782031651955568252217450929498113808185035046508368526359879401883214663529996849501980,
  -544889309298449688912646789907581232948173207675651098487224485802357135279870410440947426311426571098635382444795782712500966350,
  -513346161088761400048103842910033109470978124882249078391872918114450155663196436831617590887924570196741310254415948929618412380,
  -481093522332156176054308936231752826126483501906041917115860056930830998191754417264727486575170710531820496255529499897241918180,
  -448175969074202331158499729529122460965542110250116717140131366215146775991724573700572612626553367171353256442822107186853683580,
  -414638996332331219339989683299679830982633098580442514194695934343572455406968836943092269534654183363135401772102056961344630580,
  -380528955217588700538801264084052439731187630739562534110407251467306717152512462588474424759848190083819062037842299935081659410,
  -345892988873197059033129971717818769665829621728794332209879378594766839202333401161971803850040749882079345832390040819286615310,
  -310778967318463972627970735728000014336607738972434601671242906381704600535030132009410484797404467641688540803618423686061092900,
  -275235421288088560499353715303497712913923045843065705935668483669881407934933722431289108082061980497838782198621597324201011850,
  -239311475158303365709292619050534272798965149317029357109317548519323846570006663030894956428111588962236188803101609222949456610,
  -203056779052553478128809419528948846737484420677354894266855540266737231717933928996496594981418419856876630514963367346798099190,
  -166521440220548158966445103780456022131540968289852663531275644456702805820895749018329371619288583053104536194472878285197993180,
  -129755953785524741800537571301022174419232856462757420383442004656325989823128293999803964022365710056659973600014739846806950830,
  -92811132955437882746250340645099575167951696346441003788105360573339357528339219938225589167194941032950408028579745852162531436,
  -55738038794528216999272842322379368112878179026523565222437346704018720442810392611672409452847541157995917451308976949448108939,
  -18587909652332133286830102785434334063197235009211052160445607699228739078450509281076211182558534730221276363162138661274877534,
  18587909652332133286830102785434334063197235009211052160445607699228739078450509281076211182558534730221276363162138661274877534,
  55738038794528216999272842322379368112878179026523565222437346704018720442810392611672409452847541157995917451308976949448108939,
  92811132955437882746250340645099575167951696346441003788105360573339357528339219938225589167194941032950408028579745852162531436,
  129755953785524741800537571301022174419232856462757420383442004656325989823128293999803964022365710056659973600014739846806950830,
  166521440220548158966445103780456022131540968289852663531275644456702805820895749018329371619288583053104536194472878285197993180,
  203056779052553478128809419528948846737484420677354894266855540266737231717933928996496594981418419856876630514963367346798099190,
  239311475158303365709292619050534272798965149317029357109317548519323846570006663030894956428111588962236188803101609222949456610,
  275235421288088560499353715303497712913923045843065705935668483669881407934933722431289108082061980497838782198621597324201011850,
  310778967318463972627970735728000014336607738972434601671242906381704600535030132009410484797404467641688540803618423686061092900,
  345892988873197059033129971717818769665829621728794332209879378594766839202333401161971803850040749882079345832390040819286615310,
  380528955217588700538801264084052439731187630739562534110407251467306717152512462588474424759848190083819062037842299935081659410,
  414638996332331219339989683299679830982633098580442514194695934343572455406968836943092269534654183363135401772102056961344630580,
  448175969074202331158499729529122460965542110250116717140131366215146775991724573700572612626553367171353256442822107186853683580,
  481093522332156176054308936231752826126483501906041917115860056930830998191754417264727486575170710531820496255529499897241918180,
  513346161088761400048103842910033109470978124882249078391872918114450155663196436831617590887924570196741310254415948929618412380,
  544889309298449688912646789907581232948173207675651098487224485802357135279870410440947426311426571098635382444795782712500966350,
  575679371495674156041915893775171521867946782031651955568252217450929498113808185035046508368526359879401883214663529996849501980,
  605673793047833389684268721807679839509576446995627833747075319896749510409741414109368144557020541343035766716573878439791797810,
  634831118969691483644014248840422564411342075375014151866917681058624472664802614997227802311730400638262643548847322324255576540,
  663111051218014634336199142606922515016037183756992726141685301015183555806836314978416332353744607192904065266640679024637939430,
  690474504387248471220307205020714539379586217769685683297812733657158510355726566934427194391912655487579196061634055715466686970,
  716883659729274823822882252870558821096409044976779281355567977981472744088538122940785080556321321730416229686771679021170977690,
  742302017422609920773521739617602544086576867813144264056672765391500610683891047759815085714152061512323300398966624451203034050,
  766694447018836282666900185380416642103496557875208931541909252768412540746107614463688364724264517583237144222709517694111912550,
  790027235996596867967737656856101778573804340167762539222928443583413445843167187860183457105043839454332820938870485812520385570,
  812268136356123039022937870542735356189774657361849252681088627890768080207483977675624638228418013850094151323429262155585570390,
  833386409190021428846052446606800827151972951153726152412858521354479883990961159163556883461962975650662093146916916395317488660,
  853352867168918661598740836440584305875964049917376289514449345827154944071314146435852257641033792806999677173328679756166010710,
  872139914883579032029810582828381729882569824247594416578211788777072082614048048296506787596979070363453683072848447373876178740,
  889721586988315460803939462826577771143721736012543045070728835449628224176407969680768654069169338777681462908923322341573212190,
  906073584094008421339975508645814779774834929280339517609621755862210826631472301544316611353017242691867706433914287204280557240,
  921173306363051217727206729807140741351429336208602232262302659724065964315024208640371958026544652789741491306882574651058671830,
  934999884763558817752400569091661324507238305735699621025193526573719233052553224847934813074840383848185121544108977875058472400,
  947534209947443122811275741168411874743128984853046247418533612226815521919822905898577501999757070677034212784502724863030961760,
  958758958729693472019949185677910335804571748516776532502611400252861703858242698350151549077922255887361817544202421721495473320,
  968658618173621897690627907168918638103335056128446584144396488000719015221986894995819797093238965400108874803647365045628280010,
  977219507358315782654300664267100950473858714486669985060664760273658815294370784922005249860864545539409768851967108021228815470,
  984429797127581651519074993626654564509877016777782529464718444584243420309670439501990466211776553667874557992457712740990118270,
  990279528965356687334215897571651334276547736271380409922156128566531866060063900888313562846561317215845678154580153717450602340,
  994760638261284641195837406212398265863948982125494602199896163155978903088391735476185419225645465282175082475634960839659378940,
  997867016421711961561418965783363048995245214749477667041650101579775336183753357308169908783677375399875232166752749323828103300,
  999595061226923242204747258251234425958700507449560769150608829654815567739995317174059051873463263810567316282416682317982616750]

/-- `case 84` (Util/Gauss_Legendre_Nodes_and_Weights.hpp:17906-18330), `weights`. -/
def weights84 : List Nat := [
  1039133516451971889188113539081229119154503745098195685683945041879387779866708602215177509847005000000000000000000000000000000,
  2417511265443122855235191753290558167062977814720286751555695508061736232584844470757307072824280000000000000000000000000000000,
  3794591650452349696393394407523504269544776499036498514295045857629591858849368683843924137839560000000000000000000000000000000,
  5166605182746808329881021116026044820694882156616027080432595718047912935094947725705744218271900000000000000000000000000000000,
  6531513687713654601121349393190782150069939349568112847803382164035701601134032235720919832924500000000000000000000000000000000,
  7887405752648146382106127824773642395222405899553973402325775567338605179180612863618366438736100000000000000000000000000000000,
  9232400784190247014382945614215257306766861114241854256140053088050861061428330777316103041902400000000000000000000000000000000,
  10564637623008245264848478569958166917478462710919952480985378647359990716699048080447899777314800000000000000000000000000000000,
  11882274089801223495051961643096779052147563055314888023087956480960888410317489528315514903804640000000000000000000000000000000,
  13183488679182345986799467434001867664452399803632466882287874076296823626559682064383389844437060000000000000000000000000000000,
  14466482789161186242274872122951214488801345472369298573860103089503850861441502291331306511162300000000000000000000000000000000,
  15729483095583598201599823583106300755615983844140315270021661592026783271603693369103935213532150000000000000000000000000000000,
  16970743955211611343081682289876509267803908706027660051813515895752380093823886614876946575414037000000000000000000000000000000,
  18188549796056549927600240784575887379356401590762764557283254185232563552148455455890209849479165000000000000000000000000000000,
  19381217477318808647807058312043777262487511140729481447507391600498513052495763919533124287693246000000000000000000000000000000,
  20547098609756278611524439636689279404997852391143008067729213045746426302314733584852265398747333300000000000000000000000000000,
  21684581830644822989244037171501478058228789485716072969327609460001251356634143978518265485410077730000000000000000000000000000,
  22792095028942129338888633401287378316870167843464713783044971200454176897724290084177945847738959390000000000000000000000000000,
  23868107516958239384715421900438765990540217239557294581287468966275196273709972614865435791640280510000000000000000000000000000,
  24911132145206428884391359783210120679717922229965034974495859049968118548956645087374348041053891454700000000000000000000000000,
  25919727357334647725160215520405717358279682440483421417639258812498217140513906235098056089120686182800000000000000000000000000,
  26892499182197637515816423453464281109678150769548178293506786751514062873910417758812312435852028801100000000000000000000000000,
  27828103160258406035766920328637433898041895034277904338600996961135159386923333340405555577626940612107000000000000000000000000,
  28725246201621802212664779379587253054765601845154808274298507057215034730662073266912239031642224598785400000000000000000000000,
  29582688373110845289605261348258762811754478711074089856409905188070170811928197896362666755065131161855160000000000000000000000,
  30399244611902469773113702309016995623983767513861504113572800920977542385482396197646649743739398058874902000000000000000000000,
  31173786363345661291967469549221985096077380544129774275761129960605630948517967233984967539293012575262514000000000000000000000,
  31905243140692727484022965776882874103214294234260338480159433142924390024427351963501526551592101089429146500000000000000000000,
  32592604004584257183613335316091896487869550255955449460043497600792230666393739337442422902042349855507349282000000000000000000,
  33234918960240444074715626658809084125984222335166309741702584399439235775537320639611161381256999150064659376200000000000000000,
  33831300270425984803724891381226078925606505926305922586097257207477049957908525925523424223495896958601763062450000000000000000,
  34380923682372700621334933304112143242160992454334514122139513372007175232479269167377039362947622043038712290858000000000000000,
  34883029566963308456416662075976836278106529794879632773088247807700184653900509064990224644801794846249120328856200000000000000,
  35336923968601276160388724970420955011902471447094028229705388130323503640370341106304598184062121107648538939599910000000000000,
  35741979564315307277888973027903892045766282852961344840239073777182299385284234526169708641997348773275319305602326000000000000,
  36097636530772566701752622679820642751137858234201250209270227003679772308776036102609358666359190844415189878373095840000000000,
  36403403318002122488626260128783620638638174660761242257439435578074918675665037084626048190542553225732575581232644017000000000,
  36658857328759075636576917342792604975338485997001285219462213928932386590033773429300793049146585434389719082132284205130000000,
  36863645502590307718452071637821627329809468611613635099965207080004840042132506396236364893875868125137277251069900920615000000,
  37017484803794520585244423698130305092792034561999529741665605781029145463660236268547490243120511864803680895963740370387000000,
  37120162612602094273727587286844068731359019031539196544415876174691448642275305420365328879994829980117431494046446752772579000,
  37171537019034067603283612544952397840718280650818739923848303128604841050649369605323933232651089479661803884209587740552417590,
  37171537019034067603283612544952397840718280650818739923848303128604841050649369605323933232651089479661803884209587740552417590,
  37120162612602094273727587286844068731359019031539196544415876174691448642275305420365328879994829980117431494046446752772579000,
  37017484803794520585244423698130305092792034561999529741665605781029145463660236268547490243120511864803680895963740370387000000,
  36863645502590307718452071637821627329809468611613635099965207080004840042132506396236364893875868125137277251069900920615000000,
  36658857328759075636576917342792604975338485997001285219462213928932386590033773429300793049146585434389719082132284205130000000,
  36403403318002122488626260128783620638638174660761242257439435578074918675665037084626048190542553225732575581232644017000000000,
  36097636530772566701752622679820642751137858234201250209270227003679772308776036102609358666359190844415189878373095840000000000,
  35741979564315307277888973027903892045766282852961344840239073777182299385284234526169708641997348773275319305602326000000000000,
  35336923968601276160388724970420955011902471447094028229705388130323503640370341106304598184062121107648538939599910000000000000,
  34883029566963308456416662075976836278106529794879632773088247807700184653900509064990224644801794846249120328856200000000000000,
  34380923682372700621334933304112143242160992454334514122139513372007175232479269167377039362947622043038712290858000000000000000,
  33831300270425984803724891381226078925606505926305922586097257207477049957908525925523424223495896958601763062450000000000000000,
  33234918960240444074715626658809084125984222335166309741702584399439235775537320639611161381256999150064659376200000000000000000,
  32592604004584257183613335316091896487869550255955449460043497600792230666393739337442422902042349855507349282000000000000000000,
  31905243140692727484022965776882874103214294234260338480159433142924390024427351963501526551592101089429146500000000000000000000,
  31173786363345661291967469549221985096077380544129774275761129960605630948517967233984967539293012575262514000000000000000000000,
  30399244611902469773113702309016995623983767513861504113572800920977542385482396197646649743739398058874902000000000000000000000,
  29582688373110845289605261348258762811754478711074089856409905188070170811928197896362666755065131161855160000000000000000000000,
  28725246201621802212664779379587253054765601845154808274298507057215034730662073266912239031642224598785400000000000000000000000,
  27828103160258406035766920328637433898041895034277904338600996961135159386923333340405555577626940612107000000000000000000000000,
  26892499182197637515816423453464281109678150769548178293506786751514062873910417758812312435852028801100000000000000000000000000,
  25919727357334647725160215520405717358279682440483421417639258812498217140513906235098056089120686182800000000000000000000000000,
  24911132145206428884391359783210120679717922229965034974495859049968118548956645087374348041053891454700000000000000000000000000,
  23868107516958239384715421900438765990540217239557294581287468966275196273709972614865435791640280510000000000000000000000000000,
  22792095028942129338888633401287378316870167843464713783044971200454176897724290084177945847738959390000000000000000000000000000,
  21684581830644822989244037171501478058228789485716072969327609460001251356634143978518265485410077730000000000000000000000000000,
  20547098609756278611524439636689279404997852391143008067729213045746426302314733584852265398747333300000000000000000000000000000,
  19381217477318808647807058312043777262487511140729481447507391600498513052495763919533124287693246000000000000000000000000000000,
  18188549796056549927600240784575887379356401590762764557283254185232563552148455455890209849479165000000000000000000000000000000,
  16970743955211611343081682289876509267803908706027660051813515895752380093823886614876946575414037000000000000000000000000000000,
  15729483095583598201599823583106300755615983844140315270021661592026783271603693369103935213532150000000000000000000000000000000,
  14466482789161186242274872122951214488801345472369298573860103089503850861441502291331306511162300000000000000000000000000000000,
  13183488679182345986799467434001867664452399803632466882287874076296823626559682064383389844437060000000000000000000000000000000,
  11882274089801223495051961643096779052147563055314888023087956480960888410317489528315514903804640000000000000000000000000000000,
  10564637623008245264848478569958166917478462710919952480985378647359990716699048080447899777314800000000000000000000000000000000,
  9232400784190247014382945614215257306766861114241854256140053088050861061428330777316103041902400000000000000000000000000000000,
  7887405752648146382106127824773642395222405899553973402325775567338605179180612863618366438736100000000000000000000000000000000,
  6531513687713654601121349393190782150069939349568112847803382164035701601134032235720919832924500000000000000000000000000000000,
  5166605182746808329881021116026044820694882156616027080432595718047912935094947725705744218271900000000000000000000000000000000,
  3794591650452349696393394407523504269544776499036498514295045857629591858849368683843924137839560000000000000000000000000000000,
  2417511265443122855235191753290558167062977814720286751555695508061736232584844470757307072824280000000000000000000000000000000,
  1039133516451971889188113539081229119154503745098195685683945041879387779866708602215177509847005000000000000000000000000000000]

/-- `case 85` (Util/Gauss_Legendre_Nodes_and_Weights.hpp:18332-18757), `nodes`. -/
def nodes85 : List Int := [
  -999604477357478454326303594990157090942990007364103723861690192933159809345481495319790473612441313630805853576227907220435578690,
  -997916601198116933150308835969062924255730030854874002694205736371984909521977400336943072771944559191865783694396978955533762640,
  -994882374295616278453367144083987370721290463132734578638430214113640568830886426588807469738923101064447628417722192661472872460,
  -990505217716415963787124329921325405197454438109328298311405934965085008177126299079738459952174647926422181924969570424636418240,
  -984790957685580497327164094874408863246469614624162944416389596058257464950213124963523736719312475625148240770974305681817920430,
  -977747288412243391933333872939103123698474719005927342488300378154921482714597051675551147107701537285430935902257706975357068120,
  -969383711923678328005136203614252944073526668172089271079922820699810569215790986558506416502736996433809635397865251551926307860,
  -959711515957188362396346852856422880728865510968939496884144675629130018308285134689764287237710116852736733354805076747926415880,
  -948743756254578953404648576761948983273098185125769091319857409681661671876736353282889328766192176584728579297642916208285730660,
  -936495238116430699686697601650461886703531982251589277212594889068422512530503959541128121594675490978682836611115554681142778230,
  -922982496096090045588769455885738075324286614435633822226926954077449400609659419627517740733085345784360243648490054609870553460,
  -908223771539091884896825081042592625811904010335347995898561618378350124768560223651330839359862262420016425005424772963453591620,
  -892238987891355901581713742646718680280104491677439803228875179502279106916140818510388406358107529508457824891693539028471210650,
  -875049723769097087638652949360223710332690846638221362723533976042663080838992582499584781405518643374199179417635244609351338900,
  -856679183809956189095811322544459237534007706111993860382465056198734475488887362729215372520585400035075005021391824030524155000,
  -837152167337082650198541848709333397775684173552840751541514064618851583559789689472302182449478238514904998237205547992812970060,
  -816495034874791614720573247999196249474258709231300448970532761117039661626846874324872810328239925886417833313871395943890409540,
  -794735672559116505447149321514210578884881895878370675961441166512764419299567295539256423131446988941791605461919414971978703730,
  -771903454490293078660311061111389554418916424365318714875709813050060556365182912966032690135010326013353348118512292797944329760,
  -748029203077434073956269902811813149619904108011852232081366896301022256631601747468433738834725287279891683314273653536567056100,
  -723145147428601021384583393214557907836558043817664637815898406503694223031998963266703789417372041320769570805788954555980444020,
  -697284879842249547650963989896096770285753358406380660450618219739389501791824875255527968998288308107199439790446435863579643280,
  -670483310458662660702672074545307885627507135964673378952943783643080325346645549380051355072012791364237534491824884866631762960,
  -642776620132514714843399431608996576605170212520158327676535465485431216125552142129124968321882310077941108585450878178033189920,
  -614202211590136993071296934860449005837563709727037457934837279190103586893201996856352368316894589994915676300147465330325779300,
  -584798658937388085710292056422697554100257090142587505014940337890968945389136236610376751964866679722527803062058773259584234220,
  -554605655586269433158990751210338114227708429241530408363046931540227979810493799203998721489760821354436055581653326875799559650,
  -523663960670567874788045336170929928296507768238612494599742798002957017583798549922117188849488397400911131822142479207352873690,
  -492015344022851310477142125447098982950773253751655952485570794188700457925400278247985513787715928921021820525675245986862305220,
  -459702529787088720761469421282517747962424117394406571110038192904080190359763691346217265923163887699059002298862807823525055870,
  -426769138743009701721994413332130021012417624960087469265960056728417177392931568341108367678952720617498186710728596055634184120,
  -393259629420059190650214752960096877484257939216815208874080845869431796173893985884341073741476580880128790567539749243639234560,
  -359219238080438048756644806232914968067304261008915987815632013808466216990497237302350306299495347222146284328985739318643668790,
  -324693917652247557454016555336952763403695389317604908936466062035312200023106240119247948352921788529214308282215621733687234690,
  -289730275695173703538709627406360728631582547867898968650138567440739353555313305217652245678019316121931166265805638472476531940,
  -254375511482453522497730660373987991478305878623296580137078442587056294151580073559706764663939580215236900483729832271713347760,
  -218677352284059015710243291188240268264447189025146043733392594513576944302692694119858476578635837045959640600390599158499090880,
  -182683988937112673876281089537086593919829302050803330703866991539753589828316748558801274599463244024144639523230428755963140150,
  -146444010790510989210901521697215068869880639037141576891340951864365780992695787495432689108641134141979348296461360722378126920,
  -110006340111577237352680016914204006452507107694412366975392121099872285982990464632128493518352349752770235238942768539697954240,
  -73420166043291125619507727235155399935663662307854473882962945145547705703187414059244777961743355203904371467881484167895728538,
  -36734878201249663520468768641211473608925237445831253894907933539728475822735690314359701652156506466969180868183378254183522062,
  0,
  36734878201249663520468768641211473608925237445831253894907933539728475822735690314359701652156506466969180868183378254183522062,
  73420166043291125619507727235155399935663662307854473882962945145547705703187414059244777961743355203904371467881484167895728538,
  110006340111577237352680016914204006452507107694412366975392121099872285982990464632128493518352349752770235238942768539697954240,
  146444010790510989210901521697215068869880639037141576891340951864365780992695787495432689108641134141979348296461360722378126920,
  182683988937112673876281089537086593919829302050803330703866991539753589828316748558801274599463244024144639523230428755963140150,
  218677352284059015710243291188240268264447189025146043733392594513576944302692694119858476578635837045959640600390599158499090880,
  254375511482453522497730660373987991478305878623296580137078442587056294151580073559706764663939580215236900483729832271713347760,
  289730275695173703538709627406360728631582547867898968650138567440739353555313305217652245678019316121931166265805638472476531940,
  324693917652247557454016555336952763403695389317604908936466062035312200023106240119247948352921788529214308282215621733687234690,
  359219238080438048756644806232914968067304261008915987815632013808466216990497237302350306299495347222146284328985739318643668790,
  393259629420059190650214752960096877484257939216815208874080845869431796173893985884341073741476580880128790567539749243639234560,
  426769138743009701721994413332130021012417624960087469265960056728417177392931568341108367678952720617498186710728596055634184120,
  459702529787088720761469421282517747962424117394406571110038192904080190359763691346217265923163887699059002298862807823525055870,
  492015344022851310477142125447098982950773253751655952485570794188700457925400278247985513787715928921021820525675245986862305220,
  523663960670567874788045336170929928296507768238612494599742798002957017583798549922117188849488397400911131822142479207352873690,
  554605655586269433158990751210338114227708429241530408363046931540227979810493799203998721489760821354436055581653326875799559650,
  584798658937388085710292056422697554100257090142587505014940337890968945389136236610376751964866679722527803062058773259584234220,
  614202211590136993071296934860449005837563709727037457934837279190103586893201996856352368316894589994915676300147465330325779300,
  642776620132514714843399431608996576605170212520158327676535465485431216125552142129124968321882310077941108585450878178033189920,
  670483310458662660702672074545307885627507135964673378952943783643080325346645549380051355072012791364237534491824884866631762960,
  697284879842249547650963989896096770285753358406380660450618219739389501791824875255527968998288308107199439790446435863579643280,
  723145147428601021384583393214557907836558043817664637815898406503694223031998963266703789417372041320769570805788954555980444020,
  748029203077434073956269902811813149619904108011852232081366896301022256631601747468433738834725287279891683314273653536567056100,
  771903454490293078660311061111389554418916424365318714875709813050060556365182912966032690135010326013353348118512292797944329760,
  794735672559116505447149321514210578884881895878370675961441166512764419299567295539256423131446988941791605461919414971978703730,
  816495034874791614720573247999196249474258709231300448970532761117039661626846874324872810328239925886417833313871395943890409540,
  837152167337082650198541848709333397775684173552840751541514064618851583559789689472302182449478238514904998237205547992812970060,
  856679183809956189095811322544459237534007706111993860382465056198734475488887362729215372520585400035075005021391824030524155000,
  875049723769097087638652949360223710332690846638221362723533976042663080838992582499584781405518643374199179417635244609351338900,
  892238987891355901581713742646718680280104491677439803228875179502279106916140818510388406358107529508457824891693539028471210650,
  908223771539091884896825081042592625811904010335347995898561618378350124768560223651330839359862262420016425005424772963453591620,
  922982496096090045588769455885738075324286614435633822226926954077449400609659419627517740733085345784360243648490054609870553460,
  936495238116430699686697601650461886703531982251589277212594889068422512530503959541128121594675490978682836611115554681142778230,
  948743756254578953404648576761948983273098185125769091319857409681661671876736353282889328766192176584728579297642916208285730660,
  959711515957188362396346852856422880728865510968939496884144675629130018308285134689764287237710116852736733354805076747926415880,
  969383711923678328005136203614252944073526668172089271079922820699810569215790986558506416502736996433809635397865251551926307860,
  977747288412243391933333872939103123698474719005927342488300378154921482714597051675551147107701537285430935902257706975357068120,
  984790957685580497327164094874408863246469614624162944416389596058257464950213124963523736719312475625148240770974305681817920430,
  990505217716415963787124329921325405197454438109328298311405934965085008177126299079738459952174647926422181924969570424636418240,
  994882374295616278453367144083987370721290463132734578638430214113640568830886426588807469738923101064447628417722192661472872460,
  997916601198116933150308835969062924255730030854874002694205736371984909521977400336943072771944559191865783694396978955533762640,
  999604477357478454326303594990157090942990007364103723861690192933159809345481495319790473612441313630805853576227907220435578690]

/-- `case 85` (Util/Gauss_Legendre_Nodes_and_Weights.hpp:18332-18757), `weights`. -/
def weights85 : List Nat := [
  1014971908967743695373022546782044930411278025446633273313623248995812863314946275361644836734436000000000000000000000000000000,
  2361331704285020896767378797862718426755568748119118392665088864839074310203335522068655260589470000000000000000000000000000000,
  3706500125759316706870998743473883872237394392246868387758549103845087331826764693836232792567200000000000000000000000000000000,
  5046838426924442725451771852775877687214210091981903085542856260562749461149015241329704785356100000000000000000000000000000000,
  6380398587897515098685925233454267011267931467951177765758222828251519080315625653998399996221000000000000000000000000000000000,
  7705355960382757079897170403613732314998891756852238596704947416111873391580966038483021601131300000000000000000000000000000000,
  9019915439993631278967193653357049688484095148722028664257499792284943620746281639041093769222500000000000000000000000000000000,
  10322300230524245893816209722853604521026785437712534500822036990432814438964605883055407203096500000000000000000000000000000000,
  11610751286703898009624311902372519502191981968477123811049071765007857578061176945960044734619300000000000000000000000000000000,
  12883528856498084290506282311472674967855614490416489041003655801773397853971457008469731196080000000000000000000000000000000000,
  14138914548400832930555420479336244152692945965860929824659032321291803808200542528846547241427060000000000000000000000000000000,
  15375213542389626874408390531822389910039335926773727866663200296888302974819917005387686453612950000000000000000000000000000000,
  16590756831154670075205049620417434726718315155458093788265249120472844123073839151014760261411380000000000000000000000000000000,
  17783903451398170907743693479141265358700676750611113951618828233391864004106845488012508826960742000000000000000000000000000000,
  18953042688182840446805195993488224284321064225886610918770421466290248488243767441594708206036543000000000000000000000000000000,
  20096596243575421741794541385598009868522599469269967795013136326793550385481733813744688415844842500000000000000000000000000000,
  21213020364089379672416709409974077591507978655897344093823805070858302767496148852308160434994367200000000000000000000000000000,
  22300807922839374189457540153701605063212487546027633065153681901960240129047047452146304770838165740000000000000000000000000000,
  23358490452989891897698433152121488815754039875850412141863089405409810648673771857942896763976416440000000000000000000000000000,
  24384640129435683142415821321852772481548125427239232228851850607255402405316389653128766929649190439000000000000000000000000000,
  25377871695866088477369675217938313751997565491789884040645724636202240488994477610898650790303610752700000000000000000000000000,
  26336844334514359821731537812249422280448442541700687603498787478250070836223970404934261777791950135380000000000000000000000000,
  27260263476011164785769951238034979362266002215730412125997431182185140858380218146209922779998391742940000000000000000000000000,
  28146882546865075846383093400977910425403873384911971360839067713773699181091513176803035852873452595197000000000000000000000000,
  28995504652190152089866272490017798659256439509319829749482852889272142876642106763010376582883782968778000000000000000000000000,
  29804984191395887375612367455484643169070985129456519786322823520775592383306772470792195595102939466727480000000000000000000000,
  30574228404649995723924111816139106868397401890979571308466290271835206095275454606060490649021309040054716000000000000000000000,
  31302198848020870448396970304351949555916750231301958113532222120952390813304863665114139716856192149277014300000000000000000000,
  31987912795304674459770000575496298966627549018984615864671828656671346183753393980205995905574834119212672920000000000000000000,
  32630444564642178189037712256259053317799856685791649936871318820238806021590626744039684749550474342356594148000000000000000000,
  33228926768132769762528574963869033330887846521418027094928532165782219863425990720398306382078729658420419217200000000000000000,
  33782551482757530331311732553879269476510855359865919859709667342440032889337328889082563266966960567278703355090000000000000000,
  34290571341029846708222257589993293768199097095977414548576112205854388440433135613709632147826261837758661514008700000000000000,
  34752300539900637529247353814368721734407286462557409155540759556476856967881675932372849072689380720277202384109380000000000000,
  35167115766555788249812850966948916742910705932962311984203872190641849900214941835866531280210100152974954093707751000000000000,
  35534457039855699081991513500787955997035423421217281480948301798058954197842163855580970046707544127979212975075003500000000000,
  35853828466280812556915198266433190500838107672143527612818006826872453625970474782703607679554176541762227510362659152000000000,
  36124798909362460374751880665017090600271311171684177701559364125315839889489007446950629546058214414731504581371464540000000000,
  36347002571695203766756774443583089459815853960557088828125375157207422055307114177692690983109068890658794999588380728400000000,
  36520139488744884857476612785317546423356504760820935448237324570564439954560164957249651803001331447255406865515803355135100000,
  36643975933785702486406926603238635541818171923521052293486271847179721901092633718380714440740628622296577681833882560118650000,
  36718344733419616222152254567872899131950754523008376467233500512016978585478440823926719470135891008678064640818266006107260300,
  36743145493252106600206632032537991518703789134996392881493435177429412651618703064570830001190808316972086568751836307710033188,
  36718344733419616222152254567872899131950754523008376467233500512016978585478440823926719470135891008678064640818266006107260300,
  36643975933785702486406926603238635541818171923521052293486271847179721901092633718380714440740628622296577681833882560118650000,
  36520139488744884857476612785317546423356504760820935448237324570564439954560164957249651803001331447255406865515803355135100000,
  36347002571695203766756774443583089459815853960557088828125375157207422055307114177692690983109068890658794999588380728400000000,
  36124798909362460374751880665017090600271311171684177701559364125315839889489007446950629546058214414731504581371464540000000000,
  35853828466280812556915198266433190500838107672143527612818006826872453625970474782703607679554176541762227510362659152000000000,
  35534457039855699081991513500787955997035423421217281480948301798058954197842163855580970046707544127979212975075003500000000000,
  35167115766555788249812850966948916742910705932962311984203872190641849900214941835866531280210100152974954093707751000000000000,
  34752300539900637529247353814368721734407286462557409155540759556476856967881675932372849072689380720277202384109380000000000000,
  34290571341029846708222257589993293768199097095977414548576112205854388440433135613709632147826261837758661514008700000000000000,
  33782551482757530331311732553879269476510855359865919859709667342440032889337328889082563266966960567278703355090000000000000000,
  33228926768132769762528574963869033330887846521418027094928532165782219863425990720398306382078729658420419217200000000000000000,
  32630444564642178189037712256259053317799856685791649936871318820238806021590626744039684749550474342356594148000000000000000000,
  31987912795304674459770000575496298966627549018984615864671828656671346183753393980205995905574834119212672920000000000000000000,
  31302198848020870448396970304351949555916750231301958113532222120952390813304863665114139716856192149277014300000000000000000000,
  30574228404649995723924111816139106868397401890979571308466290271835206095275454606060490649021309040054716000000000000000000000,
  29804984191395887375612367455484643169070985129456519786322823520775592383306772470792195595102939466727480000000000000000000000,
  28995504652190152089866272490017798659256439509319829749482852889272142876642106763010376582883782968778000000000000000000000000,
  28146882546865075846383093400977910425403873384911971360839067713773699181091513176803035852873452595197000000000000000000000000,
  27260263476011164785769951238034979362266002215730412125997431182185140858380218146209922779998391742940000000000000000000000000,
  26336844334514359821731537812249422280448442541700687603498787478250070836223970404934261777791950135380000000000000000000000000,
  25377871695866088477369675217938313751997565491789884040645724636202240488994477610898650790303610752700000000000000000000000000,
  24384640129435683142415821321852772481548125427239232228851850607255402405316389653128766929649190439000000000000000000000000000,
  23358490452989891897698433152121488815754039875850412141863089405409810648673771857942896763976416440000000000000000000000000000,
  22300807922839374189457540153701605063212487546027633065153681901960240129047047452146304770838165740000000000000000000000000000,
  21213020364089379672416709409974077591507978655897344093823805070858302767496148852308160434994367200000000000000000000000000000,
  20096596243575421741794541385598009868522599469269967795013136326793550385481733813744688415844842500000000000000000000000000000,
  18953042688182840446805195993488224284321064225886610918770421466290248488243767441594708206036543000000000000000000000000000000,
  17783903451398170907743693479141265358700676750611113951618828233391864004106845488012508826960742000000000000000000000000000000,
  16590756831154670075205049620417434726718315155458093788265249120472844123073839151014760261411380000000000000000000000000000000,
  15375213542389626874408390531822389910039335926773727866663200296888302974819917005387686453612950000000000000000000000000000000,
  14138914548400832930555420479336244152692945965860929824659032321291803808200542528846547241427060000000000000000000000000000000,
  12883528856498084290506282311472674967855614490416489041003655801773397853971457008469731196080000000000000000000000000000000000,
  11610751286703898009624311902372519502191981968477123811049071765007857578061176945960044734619300000000000000000000000000000000,
  10322300230524245893816209722853604521026785437712534500822036990432814438964605883055407203096500000000000000000000000000000000,
  9019915439993631278967193653357049688484095148722028664257499792284943620746281639041093769222500000000000000000000000000000000,
  7705355960382757079897170403613732314998891756852238596704947416111873391580966038483021601131300000000000000000000000000000000,
  6380398587897515098685925233454267011267931467951177765758222828251519080315625653998399996221000000000000000000000000000000000,
  5046838426924442725451771852775877687214210091981903085542856260562749461149015241329704785356100000000000000000000000000000000,
  3706500125759316706870998743473883872237394392246868387758549103845087331826764693836232792567200000000000000000000000000000000,
  2361331704285020896767378797862718426755568748119118392665088864839074310203335522068655260589470000000000000000000000000000000,
  1014971908967743695373022546782044930411278025446633273313623248995812863314946275361644836734436000000000000000000000000000000]

/-- `case 86` (Util/Gauss_Legendre_Nodes_and_Weights.hpp:18759-19191), `nodes`. -/
def nodes86 : List Int := [
  -999613568841325857017351942969189805662156431607311504917573305231025268562626175840828375989372873231138715777045351928056676100,
  -997964477035243944785198247037693717989841467033960124143107044521105706727606573710324784777655956924834675992747545646289528450,
  -994999917485337896224027829686526778730686972048891776151155814254994196347852189452595543788493775884560290628922177919119466910,
  -990723140745518705219946159575732456404618918668602702007042604301529677920557231963576750312736597560421358113438183504425771820,
  -985139706732502413611134932129692229690872310642600225162070958340158401119634191099846211358419767737779981375626739700248889780,
  -978256960253684716622481710089679414549364736104473188303417867130109406074999959812897022612431698056240517721476335027982159210,
  -970083972685740131358566785675323840556745243601627865911066710743744959536383865818450361456011067298738681715948296929614935020,
  -960631520942898448629414608891630081837933563312261272111065837182536888306935047472399510708007841758632795846226148696266380100,
  -949912070852210255712008462219368834642259326694715145188887798459232432543153228452461677430092466101045211150260657127840347330,
  -937939759909892614433043182946540196979601063166068843454651119602289925094543054345861770108604931184246839986630695033724221240,
  -924730378322861949777045863854848696212997022719643422167122535442034715041276034994254742773298410395692811986709343441607885670,
  -910301348046165830210553097015580656307155615707807723960428502168827516524741619862961361895408443689715465343869243505077591110,
  -894671699739446334379038964327568760598544218252495284391314199501467175967837264577875037891467918061688931310192831853787906570,
  -877862047633365937339915658790179840142397661490775921759416053422178146635550800451583172366592378302525102969854288263363302670,
  -859894562322684955300208689675310061501496387000605906340110433211027630742702664069627335720169476978942023095674142776091350370,
  -840792941514433051699710688726689025464895759407154756652614313532766271504297733769700680946243089365820147785504205191949830400,
  -820582378766160221537050317049006497553274685444453047107640028329138442438364342048438070451583290385984629285015773394839907390,
  -799289530253661788136252701433591201826329711587800957946616995794353823814751290161712060827792435005124945939029011060000964580,
  -776942479611023371054469712741487635270857534302835417886342972302128569008141202028591319636074775864203764806718620179935429980,
  -753570700888808903497940761706162657230879364141624533975298941282665374572393668368923201922479919533642755358010466791700865960,
  -729205019678928322898717965166186322924324496751915944808597830860896558626428254733834991229200833548210552241878593486529978190,
  -703877572457267694796427306989338223524315949332220485734950069420630854547081832688641181101486913272939978589572409406675491520,
  -677621764197588510655952137522972613833843511010524051008355604167684447660850368825505416937447389345900594883349798634571213640,
  -650472224312526232850994715897838812096138528833436654651051537263847970401687553021288634502674972260034194277458443793467620620,
  -622464760979750811913253699847404270805965006120700239985704585203817971876285381303959141350040939463030325099552019802200904580,
  -593636313913498033672087491561429353599401190535280049776250861799541281469630844312446158721816631948781469090930027714101825840,
  -564024905643741329015105021679339346125959284430937662394908107373332827862763839549082243367564047373537915022310335968513612300,
  -533669591367248683303849130238501028146310628379303720932200203072193811764080314677140644166838892219866261536861931803265214080,
  -502610407436657274501912677149549922778530898345567018964517330979197059743977916786556285652061198431553156410487162962257277010,
  -470888318555497783577945256477108396680421372407993306929075893666499723374678520783095464332166790812248381295431419158407534320,
  -438545163748809094011783098682195864907879160333918329552290636498536673344674929142068655148410400851851018701365143347472046410,
  -405623601180600396151174199921872054557457478763151015900915709420501161334274938265369840806511849038602785451297733547249675600,
  -372167051890939610324135387848147850545038487825618239408684713532518881097845920660738459306732656848653141602228790176074869380,
  -338219642526872666411964213679980311628743678368428325058919902886926052031769341205343062522384206807438824739160044345633013300,
  -303826147142705735062771703175477132086676043422578652193370442375865991220387336608454686275569911710119440751328148337193457260,
  -269031928146410305100409500112038447227013476222821846438188224060036902393253947285691103857415075413193424236615352719281977070,
  -233882876470037463740116140835403543424167189183911468448670219604907981304123932744013191933619002427032307505411587853108573320,
  -198425351043051402814531474417231133977355773999573313729655934632195120761969152243637135900343439773413763047770001568035531980,
  -162706117648411714337532407117268930639171402038404761361313108171165563151104742805091616323192406259084906521707346790802053810,
  -126772287242048252986198785674614103193220099358761210322106497715101976244814601084564326153371170740581511370098139214554678830,
  -90671253817080167031376765608115411543265789862983980076155276004867890477276728381886398064363460803237920202770204016436690604,
  -54450631894731206029934917271631768334399650991663396400009471656224207420030800344233481701015813387272270020509238219023815175,
  -18158193724385815933442894715760363931703729469307843397608496311666630423115158075678426041836700824775695155042993275265316755,
  18158193724385815933442894715760363931703729469307843397608496311666630423115158075678426041836700824775695155042993275265316755,
  54450631894731206029934917271631768334399650991663396400009471656224207420030800344233481701015813387272270020509238219023815175,
  90671253817080167031376765608115411543265789862983980076155276004867890477276728381886398064363460803237920202770204016436690604,
  126772287242048252986198785674614103193220099358761210322106497715101976244814601084564326153371170740581511370098139214554678830,
  162706117648411714337532407117268930639171402038404761361313108171165563151104742805091616323192406259084906521707346790802053810,
  198425351043051402814531474417231133977355773999573313729655934632195120761969152243637135900343439773413763047770001568035531980,
  233882876470037463740116140835403543424167189183911468448670219604907981304123932744013191933619002427032307505411587853108573320,
  269031928146410305100409500112038447227013476222821846438188224060036902393253947285691103857415075413193424236615352719281977070,
  303826147142705735062771703175477132086676043422578652193370442375865991220387336608454686275569911710119440751328148337193457260,
  338219642526872666411964213679980311628743678368428325058919902886926052031769341205343062522384206807438824739160044345633013300,
  372167051890939610324135387848147850545038487825618239408684713532518881097845920660738459306732656848653141602228790176074869380,
  405623601180600396151174199921872054557457478763151015900915709420501161334274938265369840806511849038602785451297733547249675600,
  438545163748809094011783098682195864907879160333918329552290636498536673344674929142068655148410400851851018701365143347472046410,
  470888318555497783577945256477108396680421372407993306929075893666499723374678520783095464332166790812248381295431419158407534320,
  502610407436657274501912677149549922778530898345567018964517330979197059743977916786556285652061198431553156410487162962257277010,
  533669591367248683303849130238501028146310628379303720932200203072193811764080314677140644166838892219866261536861931803265214080,
  564024905643741329015105021679339346125959284430937662394908107373332827862763839549082243367564047373537915022310335968513612300,
  593636313913498033672087491561429353599401190535280049776250861799541281469630844312446158721816631948781469090930027714101825840,
  622464760979750811913253699847404270805965006120700239985704585203817971876285381303959141350040939463030325099552019802200904580,
  650472224312526232850994715897838812096138528833436654651051537263847970401687553021288634502674972260034194277458443793467620620,
  677621764197588510655952137522972613833843511010524051008355604167684447660850368825505416937447389345900594883349798634571213640,
  703877572457267694796427306989338223524315949332220485734950069420630854547081832688641181101486913272939978589572409406675491520,
  729205019678928322898717965166186322924324496751915944808597830860896558626428254733834991229200833548210552241878593486529978190,
  753570700888808903497940761706162657230879364141624533975298941282665374572393668368923201922479919533642755358010466791700865960,
  776942479611023371054469712741487635270857534302835417886342972302128569008141202028591319636074775864203764806718620179935429980,
  799289530253661788136252701433591201826329711587800957946616995794353823814751290161712060827792435005124945939029011060000964580,
  820582378766160221537050317049006497553274685444453047107640028329138442438364342048438070451583290385984629285015773394839907390,
  840792941514433051699710688726689025464895759407154756652614313532766271504297733769700680946243089365820147785504205191949830400,
  859894562322684955300208689675310061501496387000605906340110433211027630742702664069627335720169476978942023095674142776091350370,
  877862047633365937339915658790179840142397661490775921759416053422178146635550800451583172366592378302525102969854288263363302670,
  894671699739446334379038964327568760598544218252495284391314199501467175967837264577875037891467918061688931310192831853787906570,
  910301348046165830210553097015580656307155615707807723960428502168827516524741619862961361895408443689715465343869243505077591110,
  924730378322861949777045863854848696212997022719643422167122535442034715041276034994254742773298410395692811986709343441607885670,
  937939759909892614433043182946540196979601063166068843454651119602289925094543054345861770108604931184246839986630695033724221240,
  949912070852210255712008462219368834642259326694715145188887798459232432543153228452461677430092466101045211150260657127840347330,
  960631520942898448629414608891630081837933563312261272111065837182536888306935047472399510708007841758632795846226148696266380100,
  970083972685740131358566785675323840556745243601627865911066710743744959536383865818450361456011067298738681715948296929614935020,
  978256960253684716622481710089679414549364736104473188303417867130109406074999959812897022612431698056240517721476335027982159210,
  985139706732502413611134932129692229690872310642600225162070958340158401119634191099846211358419767737779981375626739700248889780,
  990723140745518705219946159575732456404618918668602702007042604301529677920557231963576750312736597560421358113438183504425771820,
  994999917485337896224027829686526778730686972048891776151155814254994196347852189452595543788493775884560290628922177919119466910,
  997964477035243944785198247037693717989841467033960124143107044521105706727606573710324784777655956924834675992747545646289528450,
  999613568841325857017351942969189805662156431607311504917573305231025268562626175840828375989372873231138715777045351928056676100]

/-- `case 86` (Util/Gauss_Legendre_Nodes_and_Weights.hpp:18759-19191), `weights`. -/
def weights86 : List Nat := [
  991643266620363525577582382932217540577394251344239276887215339188713578203823707813791169236110000000000000000000000000000000,
  2307087488809902925967822674102273295795198203264119224724619874052148359179463848683416229128700000000000000000000000000000000,
  3621439249610901437555720393592924428325421943830143855226426037236828837421803357146842353210300000000000000000000000000000000,
  4931184096960103696421563960890065854871488568204225638781706759304778857245674367059770744893400000000000000000000000000000000,
  6234459139140123463886945919881851362188453483980341454035323728678203470804096538798021142089100000000000000000000000000000000,
  7529521612194562606844895047886983987955724918206801647643797517473804883361840717324017222422000000000000000000000000000000000,
  8814657101954815703782007242401578360166708160531694305733233243430603428164345774154377199918900000000000000000000000000000000,
  10088168460386105654673028217243041348941756387306185907365696268290733698253165066656804886258000000000000000000000000000000000,
  11348375156177703977166589751313359437248046831407236637381540069834472622693975984081357648964700000000000000000000000000000000,
  12593614678069697810409254542497105789442919019989099507335393532525778141527962397540499862964300000000000000000000000000000000,
  13822244452766670866648191699577310182587875206020095161925449808544886807136444401500457120460600000000000000000000000000000000,
  15032643905081378684945186261206238571218834258690539946390724603213326159309052608225232138165280000000000000000000000000000000,
  16223216549729022588083607605384319064198840328308119202235555595940554198291459253223880861288730000000000000000000000000000000,
  17392392075690542386719646238464940353608919004480048339091770335322691578884984883739788972946250000000000000000000000000000000,
  18538628406709859206314722826007656755259543514172890507823155533649831630633811121074281118448711000000000000000000000000000000,
  19660413729562179807401996007952698893392436688464497876160710065990517892450631741110530901192099000000000000000000000000000000,
  20756268484909142790581694745943361223454437104901609581545299839656051859255242427394906265495036100000000000000000000000000000,
  21824747316927627800684218815890313560448446943089103044520999705696479836084776691680249533012486500000000000000000000000000000,
  22864440978548006445772845932834732661508322498714567292663895915352589578866539086836020345122544700000000000000000000000000000,
  23873978189479004973217411757844535970000248278070592879572092423212508945369161908681404423946489980000000000000000000000000000,
  24852027444399835918325828498475718160545469852183440711922666115553489598258757337550437246852362823000000000000000000000000000,
  25797298768839535407771103317069420622681842583098469612009322779247423309026355440789024352505514204100000000000000000000000000,
  26708545420372209575306743052097114958639615868263618694809291286589541885491634922766613073042539507020000000000000000000000000,
  27584565532851248387384202791359944746115004285628334104249712884055444313628262449931727283510780632142000000000000000000000000,
  28424203701493494757312431229821118832088179344351289907189775273350928145917166504605142302640007311414700000000000000000000000,
  29226352506709944583661496845225598958241286475347320162222606339287645353806596874497296435306194323268000000000000000000000000,
  29989953974664932491338489779655209991788091424761621497613718240821564504374610263203508432191982269945570000000000000000000000,
  30714000972632053183040049073360548554277336016344554794623915707571408765554809712591304662129676646636371000000000000000000000,
  31397538537302865558533224144757156639819851015222916831447677766027888104676835517685151648117160759512508000000000000000000000,
  32039665134294016110228348969456489150181264614126941568258695623807017051725801854488535994544414375432711040000000000000000000,
  32639533847189921956098678267053217032309104022708968710223624407629614546243252982538600554726159473101464627200000000000000000,
  33196353494551597120090341337464201773775538742692970417010015239315071350766001341371573160321656456700639387810000000000000000,
  33709389673417554864971536111016673741408151442101410649170801601594755906639776713608863453581941150021936730899000000000000000,
  34177965727919904634238119482623654973980591495613228128507180513177852086961291898444239216892600399928721701390700000000000000,
  34601463641737692259934409137242347458062329027158199525470614721053869144311268795758637581789973941673082565286620000000000000,
  34979324853210099371413175087053766553669290800799273042897643696071827001312369427621974347182455162397497472594031700000000000,
  35311050992034205080584711945498272840880390447882885348663538690526337082619145831900351660783137796777837981188059590000000000,
  35596204536575495590691148383978380243427109982206609265097895111459071910110424552866063806576123302575704197371899066000000000,
  35834409390924055789779422089203249448686369146599823145140404562464169175374807638163805859997321247083898815219171878900000000,
  36025351380935257710089561200275256555787368012606025838196908945516825893515158624220764172821132217703893022135410546915000000,
  36168778668600637582744953831079118638658910688672384232298491422097194307302441750235955757578141083757839312327563950617250000,
  36264502084202387431491952519968198299044586363483965978234266857198629828374506567191516521746336870849307147710201408524870000,
  36312395375813338282315140882417833184741302755169596547696626018986926370870467115243262335998757380797658931354017918071265070,
  36312395375813338282315140882417833184741302755169596547696626018986926370870467115243262335998757380797658931354017918071265070,
  36264502084202387431491952519968198299044586363483965978234266857198629828374506567191516521746336870849307147710201408524870000,
  36168778668600637582744953831079118638658910688672384232298491422097194307302441750235955757578141083757839312327563950617250000,
  36025351380935257710089561200275256555787368012606025838196908945516825893515158624220764172821132217703893022135410546915000000,
  35834409390924055789779422089203249448686369146599823145140404562464169175374807638163805859997321247083898815219171878900000000,
  35596204536575495590691148383978380243427109982206609265097895111459071910110424552866063806576123302575704197371899066000000000,
  35311050992034205080584711945498272840880390447882885348663538690526337082619145831900351660783137796777837981188059590000000000,
  34979324853210099371413175087053766553669290800799273042897643696071827001312369427621974347182455162397497472594031700000000000,
  34601463641737692259934409137242347458062329027158199525470614721053869144311268795758637581789973941673082565286620000000000000,
  34177965727919904634238119482623654973980591495613228128507180513177852086961291898444239216892600399928721701390700000000000000,
  33709389673417554864971536111016673741408151442101410649170801601594755906639776713608863453581941150021936730899000000000000000,
  33196353494551597120090341337464201773775538742692970417010015239315071350766001341371573160321656456700639387810000000000000000,
  32639533847189921956098678267053217032309104022708968710223624407629614546243252982538600554726159473101464627200000000000000000,
  32039665134294016110228348969456489150181264614126941568258695623807017051725801854488535994544414375432711040000000000000000000,
  31397538537302865558533224144757156639819851015222916831447677766027888104676835517685151648117160759512508000000000000000000000,
  30714000972632053183040049073360548554277336016344554794623915707571408765554809712591304662129676646636371000000000000000000000,
  29989953974664932491338489779655209991788091424761621497613718240821564504374610263203508432191982269945570000000000000000000000,
  29226352506709944583661496845225598958241286475347320162222606339287645353806596874497296435306194323268000000000000000000000000,
  28424203701493494757312431229821118832088179344351289907189775273350928145917166504605142302640007311414700000000000000000000000,
  27584565532851248387384202791359944746115004285628334104249712884055444313628262449931727283510780632142000000000000000000000000,
  26708545420372209575306743052097114958639615868263618694809291286589541885491634922766613073042539507020000000000000000000000000,
  25797298768839535407771103317069420622681842583098469612009322779247423309026355440789024352505514204100000000000000000000000000,
  24852027444399835918325828498475718160545469852183440711922666115553489598258757337550437246852362823000000000000000000000000000,
  23873978189479004973217411757844535970000248278070592879572092423212508945369161908681404423946489980000000000000000000000000000,
  22864440978548006445772845932834732661508322498714567292663895915352589578866539086836020345122544700000000000000000000000000000,
  21824747316927627800684218815890313560448446943089103044520999705696479836084776691680249533012486500000000000000000000000000000,
  20756268484909142790581694745943361223454437104901609581545299839656051859255242427394906265495036100000000000000000000000000000,
  19660413729562179807401996007952698893392436688464497876160710065990517892450631741110530901192099000000000000000000000000000000,
  18538628406709859206314722826007656755259543514172890507823155533649831630633811121074281118448711000000000000000000000000000000,
  17392392075690542386719646238464940353608919004480048339091770335322691578884984883739788972946250000000000000000000000000000000,
  16223216549729022588083607605384319064198840328308119202235555595940554198291459253223880861288730000000000000000000000000000000,
  15032643905081378684945186261206238571218834258690539946390724603213326159309052608225232138165280000000000000000000000000000000,
  13822244452766670866648191699577310182587875206020095161925449808544886807136444401500457120460600000000000000000000000000000000,
  12593614678069697810409254542497105789442919019989099507335393532525778141527962397540499862964300000000000000000000000000000000,
  11348375156177703977166589751313359437248046831407236637381540069834472622693975984081357648964700000000000000000000000000000000,
  10088168460386105654673028217243041348941756387306185907365696268290733698253165066656804886258000000000000000000000000000000000,
  8814657101954815703782007242401578360166708160531694305733233243430603428164345774154377199918900000000000000000000000000000000,
  7529521612194562606844895047886983987955724918206801647643797517473804883361840717324017222422000000000000000000000000000000000,
  6234459139140123463886945919881851362188453483980341454035323728678203470804096538798021142089100000000000000000000000000000000,
  4931184096960103696421563960890065854871488568204225638781706759304778857245674367059770744893400000000000000000000000000000000,
  3621439249610901437555720393592924428325421943830143855226426037236828837421803357146842353210300000000000000000000000000000000,
  2307087488809902925967822674102273295795198203264119224724619874052148359179463848683416229128700000000000000000000000000000000,
  991643266620363525577582382932217540577394251344239276887215339188713578203823707813791169236110000000000000000000000000000000]

/-- `case 87` (Util/Gauss_Legendre_Nodes_and_Weights.hpp:19193-19625), `nodes`. -/
def nodes87 : List Int := [
  -999622350432484272389096185749497565390399490658400320810486599909702551078726722500005266229757106953279335790724825232800889970,
  -998010721562982358081678891431846376473477063856642146780002395522702450006937821206795737833576639419270223709751962188680677340,
  -995113458137992005945508330416231027159975293631828542083283327148155505221795597735256668350144826400388663719881312944855113320,
  -990933650110964570522867823538884007517445869471778344289521174165026579928146057143425698365878133522614039683125564513395538220,
  -985476606068420367963807908226506489677366069337711887593413853699870939199709632719841082653318625263632968883689785131623884960,
  -978749341003816272426478037569423482079549354651570435863113896549055838148392820904030114323806062198155931404968368725648428520,
  -970760519747284274353547309066522302532269163395792170113742715747594478697753090287610663929354219275655869559548607982023866180,
  -961520436936073169264229683224874930506868697980601585248646048516975888941801540873298296417764458428943758646138333930078400630,
  -951041001389313573919119010523278447884229172195199193855995272706168166253126859240215178143126885442905921622221757799538561310,
  -939335719974205747877988092886009230635921825321442134515185371214533904600151580933690035754046404109865059788799994182593600000,
  -926419679891237219951464182782721360929554385340338016898447179498087543843074523005022474670380632995981420013674450046007063790,
  -912309529094122884382983357958241900636278714509489183598350060248027774765465529082781377162769790228815023775295821905475053360,
  -897023454767569367017326260558706439993815747209982632907683542615886159393695214186219264163969943563934842196920718425136159790,
  -880581159852041841057713216080658147566397776298470144953982433642406814202730102576206735040750802338180518032805152479326868010,
  -863003837629706602570190489180595063884886011815494163311617543067500373740052153459330804750197409667795936805738243797034221890,
  -844314144397035220240557020019893007885642704413705485855495153766005006377586243137439437009931368441387616140780248971610586830,
  -824536170255780480133434725494634095816369960992382109320602552066729744339659453174491652686003103487869899750212759693705979280,
  -803695408058177778235321113896313089865922367958761701818315669731153878697507502304866230413388258982240799469543103755594921670,
  -781818720545437736354677988571770601388956953294154691808758540691035635929286783054615264198753719440769275359285556744573389570,
  -758934305721349315735428041268913993363472266318015482494459379423241768623251392126831314350362329264475187976678974394141826090,
  -735071660505313794102036048985008750457224270019665553871647943892472410942926043201609232188008453173600329018452337875100432590,
  -710261542711472902841968378563206824963289622972237315752263117483159847903304169537756128803021375075785414595548241776071047760,
  -684535931402823674119861517328756456249806653504923551364209941393132265927429688724721825328947165686204836605706738777131207390,
  -657927985671349391042954035196771193374441089327331597118769569107697785833056328808897216763119845731961281763875898878032105060,
  -630472001897250447293694777075813497067786559898796094525013147691543074068735409548088900751602703161997272376478896462001152280,
  -602203369542335201687954966891137004472416757980515739967336102825144338963782737339741310615032371643261235478712326408187107260,
  -573158525534530411874212784992110484655464762126392146807011138233683946388726741024405343924226738941772197108077339161304122640,
  -543374907302293353442616149349503999769504125296562223305347047476503207866221996022922367331734410253587081036692328362940461020,
  -512890904519452259140909518153736565633971802210266474493906283180951217778464665093478941827819122413580167792234006990029078310,
  -481745809622666805089461781503044937110521634826645679701231349248391337532151764652910900845367447457768620913895146409129742920,
  -449979767165284378401573103410581060242108638006767662090474278987984235179302733504456677135151825841716249876348714978804761420,
  -417633722072869055029910756144652150836662693283229751264546403933012606121342984389910662205989011579451032504506594245662017650,
  -384749366867096863663811170222353558160106937644079201718646484445435544540835119475553527154854055365976484913968980755550027890,
  -351369087926041315715693878667645702381599860664916301825470807459410851677726971813738404636262527769787023197407771555745191670,
  -317535910850115714331343646849279471874506368970341056470435732683827145523373598297844793900033846747268959285271455517100781560,
  -283293445004091873194452195365228723423785964523055877577931262871240841684856034562193347901248631453977269282665898761361381910,
  -248685827306677131599537923360315256640515832788089432080414974688878813678807278627228657537514558346023491682832727232197397880,
  -213757665340101603593762577694925815743044846375573116618360656507287313330971944456486964493117996923821205062501705280890132800,
  -178553979853044214298229486984192442580625528214368877575618736029358275297897368332914619354506686412926269994538313314764576500,
  -143120146731008139012399367020744511971910730901968526366069698483732260289835462375420486734110035428393712354121353716451071580,
  -107501838508942771605762475899963289063181068820247075455248064337705395422530715395460283332843454699219033390352076856641872080,
  -71744965501499429712830854356574136163497965944466079993220206864129894788620681032897485217767546600092635616146097008986696772,
  -35895616626800899472717182652823964453619059961485711323784695870692481539910637531063649226467507681833395516898154183022076985,
  0,
  35895616626800899472717182652823964453619059961485711323784695870692481539910637531063649226467507681833395516898154183022076985,
  71744965501499429712830854356574136163497965944466079993220206864129894788620681032897485217767546600092635616146097008986696772,
  107501838508942771605762475899963289063181068820247075455248064337705395422530715395460283332843454699219033390352076856641872080,
  143120146731008139012399367020744511971910730901968526366069698483732260289835462375420486734110035428393712354121353716451071580,
  178553979853044214298229486984192442580625528214368877575618736029358275297897368332914619354506686412926269994538313314764576500,
  213757665340101603593762577694925815743044846375573116618360656507287313330971944456486964493117996923821205062501705280890132800,
  248685827306677131599537923360315256640515832788089432080414974688878813678807278627228657537514558346023491682832727232197397880,
  283293445004091873194452195365228723423785964523055877577931262871240841684856034562193347901248631453977269282665898761361381910,
  317535910850115714331343646849279471874506368970341056470435732683827145523373598297844793900033846747268959285271455517100781560,
  351369087926041315715693878667645702381599860664916301825470807459410851677726971813738404636262527769787023197407771555745191670,
  384749366867096863663811170222353558160106937644079201718646484445435544540835119475553527154854055365976484913968980755550027890,
  417633722072869055029910756144652150836662693283229751264546403933012606121342984389910662205989011579451032504506594245662017650,
  449979767165284378401573103410581060242108638006767662090474278987984235179302733504456677135151825841716249876348714978804761420,
  481745809622666805089461781503044937110521634826645679701231349248391337532151764652910900845367447457768620913895146409129742920,
  512890904519452259140909518153736565633971802210266474493906283180951217778464665093478941827819122413580167792234006990029078310,
  543374907302293353442616149349503999769504125296562223305347047476503207866221996022922367331734410253587081036692328362940461020,
  573158525534530411874212784992110484655464762126392146807011138233683946388726741024405343924226738941772197108077339161304122640,
  602203369542335201687954966891137004472416757980515739967336102825144338963782737339741310615032371643261235478712326408187107260,
  630472001897250447293694777075813497067786559898796094525013147691543074068735409548088900751602703161997272376478896462001152280,
  657927985671349391042954035196771193374441089327331597118769569107697785833056328808897216763119845731961281763875898878032105060,
  684535931402823674119861517328756456249806653504923551364209941393132265927429688724721825328947165686204836605706738777131207390,
  710261542711472902841968378563206824963289622972237315752263117483159847903304169537756128803021375075785414595548241776071047760,
  735071660505313794102036048985008750457224270019665553871647943892472410942926043201609232188008453173600329018452337875100432590,
  758934305721349315735428041268913993363472266318015482494459379423241768623251392126831314350362329264475187976678974394141826090,
  781818720545437736354677988571770601388956953294154691808758540691035635929286783054615264198753719440769275359285556744573389570,
  803695408058177778235321113896313089865922367958761701818315669731153878697507502304866230413388258982240799469543103755594921670,
  824536170255780480133434725494634095816369960992382109320602552066729744339659453174491652686003103487869899750212759693705979280,
  844314144397035220240557020019893007885642704413705485855495153766005006377586243137439437009931368441387616140780248971610586830,
  863003837629706602570190489180595063884886011815494163311617543067500373740052153459330804750197409667795936805738243797034221890,
  880581159852041841057713216080658147566397776298470144953982433642406814202730102576206735040750802338180518032805152479326868010,
  897023454767569367017326260558706439993815747209982632907683542615886159393695214186219264163969943563934842196920718425136159790,
  912309529094122884382983357958241900636278714509489183598350060248027774765465529082781377162769790228815023775295821905475053360,
  926419679891237219951464182782721360929554385340338016898447179498087543843074523005022474670380632995981420013674450046007063790,
  939335719974205747877988092886009230635921825321442134515185371214533904600151580933690035754046404109865059788799994182593600000,
  951041001389313573919119010523278447884229172195199193855995272706168166253126859240215178143126885442905921622221757799538561310,
  961520436936073169264229683224874930506868697980601585248646048516975888941801540873298296417764458428943758646138333930078400630,
  970760519747284274353547309066522302532269163395792170113742715747594478697753090287610663929354219275655869559548607982023866180,
  978749341003816272426478037569423482079549354651570435863113896549055838148392820904030114323806062198155931404968368725648428520,
  985476606068420367963807908226506489677366069337711887593413853699870939199709632719841082653318625263632968883689785131623884960,
  990933650110964570522867823538884007517445869471778344289521174165026579928146057143425698365878133522614039683125564513395538220,
  995113458137992005945508330416231027159975293631828542083283327148155505221795597735256668350144826400388663719881312944855113320,
  998010721562982358081678891431846376473477063856642146780002395522702450006937821206795737833576639419270223709751962188680677340,
  999622350432484272389096185749497565390399490658400320810486599909702551078726722500005266229757106953279335790724825232800889970]

/-- `case 87` (Util/Gauss_Legendre_Nodes_and_Weights.hpp:19193-19625), `weights`. -/
def weights87 : List Nat := [
  969109738177075337606534844073158609219399100860734508392410308954856080288031470877000673813910000000000000000000000000000000,
  2254690753752853092481210795244682882537382120144497110167811505430384218978668303865180577691700000000000000000000000000000000,
  3539271655388628540181585977943603639300176091973533813665935634814695518361171835752514678312300000000000000000000000000000000,
  4819456238501885899308698577986734118211442576062099292553696107850478554113752662923285364381000000000000000000000000000000000,
  6093462047634872130102255464233219078945055613001689610701747177805941913676461093161412356405000000000000000000000000000000000,
  7359623648818063660770582721953260592993709547806781781982776146520436804567652557105251574128000000000000000000000000000000000,
  8616302838488951832950103594050488838210945724518437123942981933379561158963622762060891356384000000000000000000000000000000000,
  9861877713701826716584130479151970250867578370029102044490664975189535750981313001318405421821000000000000000000000000000000000,
  11094741940560719279720844553249763430957777182568503599574719899045970984309516945259228812791000000000000000000000000000000000,
  12313306030048036542287003377686595546650138634565730725773927673170793194303123261858259856511200000000000000000000000000000000,
  13515999118245658081880686073298485543952786277373285415757149189904018298796461538286584662480900000000000000000000000000000000,
  14701270887239842229893921958806986230516029606663405289188101913985405313865083149515595245803200000000000000000000000000000000,
  15867593518826319002921742043959787443576563697863443099204726309622344200673369201511738487909630000000000000000000000000000000,
  17013463643001534433645345784562117885396058840658741923850343875465046262198677959499323617613690000000000000000000000000000000,
  18137404265354252050218043755871298499162784532581393821466988809905050507293105391234942085970530000000000000000000000000000000,
  19237966665356558785050667896967804566362331879619086582192076559644415048068361748314025532339570000000000000000000000000000000,
  20313732260655569526569795936022145653276757367016076574705476209390426201775477196248263002954973000000000000000000000000000000,
  21363314433802531593616152250173626956631412817494231022791608088658730109189801508265190345062038900000000000000000000000000000,
  22385360318485478214197499144379729357493447614109782086923067471780057651459972629510230222869848420000000000000000000000000000,
  23378552542660172257823951014789626911300475841977766717428398965513005502143915577848015833415391910000000000000000000000000000,
  24341610926167632339213805212401433299488911460573179795211064974188307457680192118904804951367699428000000000000000000000000000,
  25273294130557073164118610356466698203194751329018631902828835516097578293247304707570004735589905198800000000000000000000000000,
  26172401258933558949725519078425646523582518760707858668245856105171356553026864122239563585574648356500000000000000000000000000,
  27037773403735807283977294623090728289450187572927351973345203893064049796389599613854377123610104160320000000000000000000000000,
  27868295140429205989634359769146058762130283993535698778276591896725367700120431794412472288126747252060000000000000000000000000,
  28662895965176218388587283336648307368342679411419386551398364495831229023185979772044141124557786534941300000000000000000000000,
  29420551674623048249224770204745738423558310306924792742827883144965131459132431113435519874921651233756790000000000000000000000,
  30140285686018824743951159604937821233662765385058801778331285161312702794351042997685384658586527301233072000000000000000000000,
  30821170295962234153719042877545396351238972876395649183055885565823834508030611490953223439359489523279206100000000000000000000,
  31462327876150763937962223304535748687301158345269114154302425010687466228700080908861121021535811525441660590000000000000000000,
  32062932004589667777658181942992887045359657147794963209258834484608123721749765641982004885273813069910746121000000000000000000,
  32622208530801443925800340678041720061026566843928688032187351033519317726387360777493437333097829778613111377000000000000000000,
  33139436573662023536288836698924401490888764960909315616534701697575914159667342661516426860394709789285417279280000000000000000,
  33613949450576935584222257343789327567956096988633045219129056599667547907513895557211313325960821562998341506102700000000000000,
  34045135536799373455183636470438152523346123291791652080747034745756402991746962632776057842965128687173135203343830000000000000,
  34432439053782243765938192758249066330312302909715918131544651988136722514443242586966175263329528518946102754960827000000000000,
  34775360785547829248711224086153365426773978867321843503881733161033274299677487152802216026110813050668360611393436500000000000,
  35073458722151536556625347191259967743521596325348523475164307007449892175348369431591429968498115925661534560408734401000000000,
  35326348629410213698430530968705710624889072087515986358341470571228759430956239757058488950311306407809901110881756796800000000,
  35533704544160593911334757049283061675937810509984932299986257196532595167144186527584788711846547300596181707981332006030000000,
  35695259194409433776479430099949591559563976938943787485097254698021565856199006640203949439368094108300010751468827437145800000,
  35810804343833741756625599205024921116436888988058684369899106267175057744863042975570660216656454169291745930043318684587310000,
  35880191060187015877735207223769604581805774059429174319231591124371683172609383084304153844056178896312783968936616862975690500,
  35903329907265501442083267342139118149337194403809396452837289810049932087643272277125889640481862638700693917623012462917612031,
  35880191060187015877735207223769604581805774059429174319231591124371683172609383084304153844056178896312783968936616862975690500,
  35810804343833741756625599205024921116436888988058684369899106267175057744863042975570660216656454169291745930043318684587310000,
  35695259194409433776479430099949591559563976938943787485097254698021565856199006640203949439368094108300010751468827437145800000,
  35533704544160593911334757049283061675937810509984932299986257196532595167144186527584788711846547300596181707981332006030000000,
  35326348629410213698430530968705710624889072087515986358341470571228759430956239757058488950311306407809901110881756796800000000,
  35073458722151536556625347191259967743521596325348523475164307007449892175348369431591429968498115925661534560408734401000000000,
  34775360785547829248711224086153365426773978867321843503881733161033274299677487152802216026110813050668360611393436500000000000,
  34432439053782243765938192758249066330312302909715918131544651988136722514443242586966175263329528518946102754960827000000000000,
  34045135536799373455183636470438152523346123291791652080747034745756402991746962632776057842965128687173135203343830000000000000,
  33613949450576935584222257343789327567956096988633045219129056599667547907513895557211313325960821562998341506102700000000000000,
  33139436573662023536288836698924401490888764960909315616534701697575914159667342661516426860394709789285417279280000000000000000,
  32622208530801443925800340678041720061026566843928688032187351033519317726387360777493437333097829778613111377000000000000000000,
  32062932004589667777658181942992887045359657147794963209258834484608123721749765641982004885273813069910746121000000000000000000,
  31462327876150763937962223304535748687301158345269114154302425010687466228700080908861121021535811525441660590000000000000000000,
  30821170295962234153719042877545396351238972876395649183055885565823834508030611490953223439359489523279206100000000000000000000,
  30140285686018824743951159604937821233662765385058801778331285161312702794351042997685384658586527301233072000000000000000000000,
  29420551674623048249224770204745738423558310306924792742827883144965131459132431113435519874921651233756790000000000000000000000,
  28662895965176218388587283336648307368342679411419386551398364495831229023185979772044141124557786534941300000000000000000000000,
  27868295140429205989634359769146058762130283993535698778276591896725367700120431794412472288126747252060000000000000000000000000,
  27037773403735807283977294623090728289450187572927351973345203893064049796389599613854377123610104160320000000000000000000000000,
  26172401258933558949725519078425646523582518760707858668245856105171356553026864122239563585574648356500000000000000000000000000,
  25273294130557073164118610356466698203194751329018631902828835516097578293247304707570004735589905198800000000000000000000000000,
  24341610926167632339213805212401433299488911460573179795211064974188307457680192118904804951367699428000000000000000000000000000,
  23378552542660172257823951014789626911300475841977766717428398965513005502143915577848015833415391910000000000000000000000000000,
  22385360318485478214197499144379729357493447614109782086923067471780057651459972629510230222869848420000000000000000000000000000,
  21363314433802531593616152250173626956631412817494231022791608088658730109189801508265190345062038900000000000000000000000000000,
  20313732260655569526569795936022145653276757367016076574705476209390426201775477196248263002954973000000000000000000000000000000,
  19237966665356558785050667896967804566362331879619086582192076559644415048068361748314025532339570000000000000000000000000000000,
  18137404265354252050218043755871298499162784532581393821466988809905050507293105391234942085970530000000000000000000000000000000,
  17013463643001534433645345784562117885396058840658741923850343875465046262198677959499323617613690000000000000000000000000000000,
  15867593518826319002921742043959787443576563697863443099204726309622344200673369201511738487909630000000000000000000000000000000,
  14701270887239842229893921958806986230516029606663405289188101913985405313865083149515595245803200000000000000000000000000000000,
  13515999118245658081880686073298485543952786277373285415757149189904018298796461538286584662480900000000000000000000000000000000,
  12313306030048036542287003377686595546650138634565730725773927673170793194303123261858259856511200000000000000000000000000000000,
  11094741940560719279720844553249763430957777182568503599574719899045970984309516945259228812791000000000000000000000000000000000,
  9861877713701826716584130479151970250867578370029102044490664975189535750981313001318405421821000000000000000000000000000000000,
  8616302838488951832950103594050488838210945724518437123942981933379561158963622762060891356384000000000000000000000000000000000,
  7359623648818063660770582721953260592993709547806781781982776146520436804567652557105251574128000000000000000000000000000000000,
  6093462047634872130102255464233219078945055613001689610701747177805941913676461093161412356405000000000000000000000000000000000,
  4819456238501885899308698577986734118211442576062099292553696107850478554113752662923285364381000000000000000000000000000000000,
  3539271655388628540181585977943603639300176091973533813665935634814695518361171835752514678312300000000000000000000000000000000,
  2254690753752853092481210795244682882537382120144497110167811505430384218978668303865180577691700000000000000000000000000000000,
  969109738177075337606534844073158609219399100860734508392410308954856080288031470877000673813910000000000000000000000000000000]

/-- `case 88` (Util/Gauss_Legendre_Nodes_and_Weights.hpp:19627-20063), `nodes`. -/
def nodes88 : List Int := [
  -999630836056270655781323305214305365386584383734613322116791725899756638599243912659758050496957607130745889265826861098786822630,
  -998055408053249677606002447275870811548192067884961036894928028310444241099848946813125901464547988296228787621169247514003771700,
  -995223175887988870781101179686137537814596632156369692017209115890743030065578612104393099346093945750466527951724205231989719080,
  -991137078154015555111612198999272226966438925061374086429192028511202484922204600566771108453304038378453278816871518018310536120,
  -985802186087763552283935751841427521787034674090642987446169636457077034182359472780618334632448740253123713534465774837149016840,
  -979225203154296703776892312893896976268613889198973538363631312686725598678643361650536567931539957717928828908919149754970900580,
  -971414410141322276480367510866149171092116434712301729239010243302122750063781671021301267569066102609551160358536462397640063480,
  -962379646063770682989887837116989158008093105049742880671051345165839912455734715551890332371090294841476396419460373322762488030,
  -952132293463802112522033239679696318244932493483238086655818864331788260969755354792733789003647407131347907616429212673026082080,
  -940685263302643545262005131476710619146403697783478727033336961782311847395659312668345201742089386593965216854219430593094537020,
  -928052978394692055580503380497096889553239751534475525599570864710668914757845734697400535992581468170130544275305300754309447080,
  -914251355104527191339978095846047210913696024726451269959176991262190955782656611849193990837484566685973143010349456220988557610,
  -899297783230057054844672906498550424595149633899205088324161607550406274767460493466622182808221741505220650957017959267655215830,
  -883211104059450581623721965407830080934526613225287912918328938784678496648863730045121516244130641044260166872838831862210057310,
  -866011586613781334022913274559504414169857595307629006952128890649640481212273074739556515662932065613303924524543083278927295370,
  -847720902098209087197014518342744484832793529176104734554368373568097006199123722473299344409456590771516408659593632857713768780,
  -828362096590456244850838190093674077791492393611481325604313099433677006196089517022249398365057093714810180833304655464521068190,
  -807959561999236491824533126134410927260942248545256303548266787321037860361977173740672123343852428834291092898767863195913284260,
  -786539005328287157479978973381470256045705738747456954144389658055262143022396601294573012180880607969842919758240807297853073240,
  -764127416284206841967597389772746224972634206339644574719662969023250862047734194546809755516107351519498438861929325539714305360,
  -740753033268607773581767433914688064755047914044780163970649685150230092383477437004785754596364821699486632680424915035399008480,
  -716445307797250485659941889802670291401246952511434326422514421551606874537271240434381553246511914482588789543843933237963600370,
  -691234867390880438020343073446042988307920703260756661385848986283057489136763436794513987489743175140730623504350715305509117530,
  -665153476984453172221993670053620916530286374404378923607491177741844339949143135382435561543983186872570817147066942334712068020,
  -638233998903326450283540740289342854835760765045650815386667693100157377776627424066001435865679086850530864558118053858120572070,
  -610510351456818986239587271031617705870468875658855492749530307528766326095285713371945999757071685948725504761956796200386355080,
  -582017466201287357580758323545932164700614634552376800209822275302950613460116493209235670869475429993105027562495546226384437930,
  -552791243926555472797175822240195638423208089037324051618872331518679452517441018082821342063997738458090561322286490992722312430,
  -522868509421143753727045179076190682882672618004725908483870964469833872033859942995969923731319287299216087666677337271913371890,
  -492286965073286722885887488482286546994372938989974224922907913016706007301886826552299855538147615741256735835668414432556542120,
  -461085143366196510612751277304942810277120387604316441116160677876507210402777588520138221060598179436383236201426131353242774060,
  -429302358327424370211024585478765366799411593444245834227474947836202969231686769169668009471849048009456631573608658358631597160,
  -396978655993491050245983803820688154387137782652602684439703691109572883833044883493066582581177900761976699314725909460627207390,
  -364154763952198287815301142616048924076925777824688829655501865607262377035284206541022901177469672796214047009080909825213335710,
  -330872040026196275109125577647024705044834634018239311846686698692927595442722594747797167803767706059262889285412221996009629620,
  -297172420162464305587542270167969287258618113379840131369317009943653534099857743205027019275089944498421295996885781391666101400,
  -263098365593362600228498010347105646328141699925764449762524046608712331141136201708564754533061155373902955722977950340729517380,
  -228692809335831313896401104272092658777602463036532927622269209670246800147600720218088240233020455755441547850982806059568615110,
  -193999102096146788577960057704802223912843365172956828809575969544950257693412964195956153714301283631660135349501807828090055330,
  -159060957648394215944091062730736761074315439486395217299516720754059199951365356504619992469120195180170573160688909107909082290,
  -123922397755479061647621909752535818296479387968876999101054979292256055252441305568065201698658343274252382250553450235031056270,
  -88627696702076058804613540428470229548398288031810695443955861249741525305057131088594448313317308431218641665521951220761100010,
  -53221325509403576521964201416397502437791743944370578831766787355745081733831361147286585203157882411524909215477056039760079893,
  -17747895902112098288902091357952255307066484201284669653337050846137069654235454935177581270708201932715442395805162241730859485,
  17747895902112098288902091357952255307066484201284669653337050846137069654235454935177581270708201932715442395805162241730859485,
  53221325509403576521964201416397502437791743944370578831766787355745081733831361147286585203157882411524909215477056039760079893,
  88627696702076058804613540428470229548398288031810695443955861249741525305057131088594448313317308431218641665521951220761100010,
  123922397755479061647621909752535818296479387968876999101054979292256055252441305568065201698658343274252382250553450235031056270,
  159060957648394215944091062730736761074315439486395217299516720754059199951365356504619992469120195180170573160688909107909082290,
  193999102096146788577960057704802223912843365172956828809575969544950257693412964195956153714301283631660135349501807828090055330,
  228692809335831313896401104272092658777602463036532927622269209670246800147600720218088240233020455755441547850982806059568615110,
  263098365593362600228498010347105646328141699925764449762524046608712331141136201708564754533061155373902955722977950340729517380,
  297172420162464305587542270167969287258618113379840131369317009943653534099857743205027019275089944498421295996885781391666101400,
  330872040026196275109125577647024705044834634018239311846686698692927595442722594747797167803767706059262889285412221996009629620,
  364154763952198287815301142616048924076925777824688829655501865607262377035284206541022901177469672796214047009080909825213335710,
  396978655993491050245983803820688154387137782652602684439703691109572883833044883493066582581177900761976699314725909460627207390,
  429302358327424370211024585478765366799411593444245834227474947836202969231686769169668009471849048009456631573608658358631597160,
  461085143366196510612751277304942810277120387604316441116160677876507210402777588520138221060598179436383236201426131353242774060,
  492286965073286722885887488482286546994372938989974224922907913016706007301886826552299855538147615741256735835668414432556542120,
  522868509421143753727045179076190682882672618004725908483870964469833872033859942995969923731319287299216087666677337271913371890,
  552791243926555472797175822240195638423208089037324051618872331518679452517441018082821342063997738458090561322286490992722312430,
  582017466201287357580758323545932164700614634552376800209822275302950613460116493209235670869475429993105027562495546226384437930,
  610510351456818986239587271031617705870468875658855492749530307528766326095285713371945999757071685948725504761956796200386355080,
  638233998903326450283540740289342854835760765045650815386667693100157377776627424066001435865679086850530864558118053858120572070,
  665153476984453172221993670053620916530286374404378923607491177741844339949143135382435561543983186872570817147066942334712068020,
  691234867390880438020343073446042988307920703260756661385848986283057489136763436794513987489743175140730623504350715305509117530,
  716445307797250485659941889802670291401246952511434326422514421551606874537271240434381553246511914482588789543843933237963600370,
  740753033268607773581767433914688064755047914044780163970649685150230092383477437004785754596364821699486632680424915035399008480,
  764127416284206841967597389772746224972634206339644574719662969023250862047734194546809755516107351519498438861929325539714305360,
  786539005328287157479978973381470256045705738747456954144389658055262143022396601294573012180880607969842919758240807297853073240,
  807959561999236491824533126134410927260942248545256303548266787321037860361977173740672123343852428834291092898767863195913284260,
  828362096590456244850838190093674077791492393611481325604313099433677006196089517022249398365057093714810180833304655464521068190,
  847720902098209087197014518342744484832793529176104734554368373568097006199123722473299344409456590771516408659593632857713768780,
  866011586613781334022913274559504414169857595307629006952128890649640481212273074739556515662932065613303924524543083278927295370,
  883211104059450581623721965407830080934526613225287912918328938784678496648863730045121516244130641044260166872838831862210057310,
  899297783230057054844672906498550424595149633899205088324161607550406274767460493466622182808221741505220650957017959267655215830,
  914251355104527191339978095846047210913696024726451269959176991262190955782656611849193990837484566685973143010349456220988557610,
  928052978394692055580503380497096889553239751534475525599570864710668914757845734697400535992581468170130544275305300754309447080,
  940685263302643545262005131476710619146403697783478727033336961782311847395659312668345201742089386593965216854219430593094537020,
  952132293463802112522033239679696318244932493483238086655818864331788260969755354792733789003647407131347907616429212673026082080,
  962379646063770682989887837116989158008093105049742880671051345165839912455734715551890332371090294841476396419460373322762488030,
  971414410141322276480367510866149171092116434712301729239010243302122750063781671021301267569066102609551160358536462397640063480,
  979225203154296703776892312893896976268613889198973538363631312686725598678643361650536567931539957717928828908919149754970900580,
  985802186087763552283935751841427521787034674090642987446169636457077034182359472780618334632448740253123713534465774837149016840,
  991137078154015555111612198999272226966438925061374086429192028511202484922204600566771108453304038378453278816871518018310536120,
  995223175887988870781101179686137537814596632156369692017209115890743030065578612104393099346093945750466527951724205231989719080,
  998055408053249677606002447275870811548192067884961036894928028310444241099848946813125901464547988296228787621169247514003771700,
  999630836056270655781323305214305365386584383734613322116791725899756638599243912659758050496957607130745889265826861098786822630]

/-- `case 88` (Util/Gauss_Legendre_Nodes_and_Weights.hpp:19627-20063), `weights`. -/
def weights88 : List Nat := [
  947335598161927266771246363854571245435691877014451993772699077715385892606120507663898447183200000000000000000000000000000000,
  2204058563143696628540050448635676472012800295450162440116868147913684205580339345712156062080500000000000000000000000000000000,
  3459867667862796423975366145372045155835722927827850254038738258579998446561437850300095645644000000000000000000000000000000000,
  4711479279598661743021814689100305980965735291941860627805332464667165904862514064004941860072000000000000000000000000000000000,
  5957186996138046583129384931847170045882494832151123976061785476064231385052950131549631469447000000000000000000000000000000000,
  7195398459796372059759958321680833375646730436714187492353301322285731986912224854425727345924000000000000000000000000000000000,
  8424547492702473015098581276204474344523971292451140409114024458202222893445255857718840762365000000000000000000000000000000000,
  9643083322053204400770190265624357266658590787633370866424624689347614061166652405350143972309000000000000000000000000000000000,
  10849469775429271259401843642929872300181550676698968888003604468621725181617868903473653384855000000000000000000000000000000000,
  12042186439581212309739552941804078780984719828281524483087786389959723268227087244842672494654000000000000000000000000000000000,
  13219730313627911708181334950898991471812170012788744304093926718038369539545472712778776423149200000000000000000000000000000000,
  14380617601299944235934592121622405012056290465997397168146736590350794051158042329033912459016900000000000000000000000000000000,
  15523385536933553840164816347540211111862081003126421240402400223702377722308966763510350762681200000000000000000000000000000000,
  16646594208217656045112823334409556769719290284381294138206358710915538355601693530258361991607700000000000000000000000000000000,
  17748828360324074556495065150893255100510439783160458360360826590830194655522316626285033979082690000000000000000000000000000000,
  18828699173755451394710039432120521439248717493988454676867893764642655093968647651748265124148290000000000000000000000000000000,
  19884846011274113243600999308091108461812221192456978006797685116815225931094075258945285093290439000000000000000000000000000000,
  20915938130576624232254279401903303662310087956682822230402221890957837049867312792959325826584514500000000000000000000000000000,
  21920676359989853595634388068952066232104955512151145674799749746304338298545409445189051110702721700000000000000000000000000000,
  22897794734781142327247795096509138086608892853874689898053816634362119509911516639335712576247363570000000000000000000000000000,
  23846062091859661263578619663002240932537101252809523849906060504396704322417147302255956992447581840000000000000000000000000000,
  24764283620768733025321495325140658936017041923925266581532581631082471809563986028438581475615169152000000000000000000000000000,
  25651302368961947884779355024075863286171245773097492259980905342998466445363721712536767640903463082100000000000000000000000000,
  26506000699434737721408901893668866101668336238188060921990801563795362180474323531815093265370743910380000000000000000000000000,
  27327301698855330835623808797941393752407911188743648324983440879731609473092580408416556324940107265564000000000000000000000000,
  28114170534408613491578939824033465616260592545493344273238002809080291129682481907266849272766352031488000000000000000000000000,
  28865615757635429246476985454492916535136036682072516457082704948833022005767030885460231417283536375744700000000000000000000000,
  29580690553619349113352395601887765623431390878783548359007683422333479172572091613176243188356316944832680000000000000000000000,
  30258493933943525335137432460407360056160194233555742196586701736815689304923288329738026270061225887656094000000000000000000000,
  30898171871912197633702879563457209842575813874064466707267449292897377769487838970828294455755175845133984500000000000000000000,
  31498918378604892320041751642794172530012429677858651782519979381943213244212433996096685740724716940143899820000000000000000000,
  32059976518406388069266964176938481071202717484944610788287109976662493470567878982812187443496180866796869406800000000000000000,
  32580639362732108686239429754716933005277749998610522326280314646295095059267738711926967175409936557134162549700000000000000000,
  33060250880746700145280746761032816221610495159763459772940663570794376005488383806492779357364842399810822386623000000000000000,
  33498206765953092528065162150265246301654093960431874868953419264363402899803184293805262127249114894644595870316700000000000000,
  33893955197610259239892537505479621522427426805933119881326964871599866009035338355926547167273539509096647694090100000000000000,
  34246997536020078737369597588597855350922458020114549766466068126406023412713444885728181367107174779558577256964525200000000000,
  34556888950807084134865313978957045306030138337954064378300636843327688394201302781407942029812277823364448224074061490000000000,
  34823238981399354993129046318654014859128119177468362645992343686146064076967352701342091023581842666215702777660973292000000000,
  35045712029004261396586209701768966547836042136492798823806249526079052801681258183048466740883449048622708217257833815560000000,
  35224027779459108532878671852410961830055447004063745762566051838697096716849361901711169848524714766405801923596165158087000000,
  35357961556423843793669027143253211843060065858103138140658372331965308116061959229672061396931184929010191056936294598025830000,
  35447344604470769706143152618009460708324719746851617857679678604499391808875930009808379277927064266370698769949305087785184000,
  35492064301714545296067452959019529903919277235902826143735434458979520937374036555202842209169540274605705458127677126194651900,
  35492064301714545296067452959019529903919277235902826143735434458979520937374036555202842209169540274605705458127677126194651900,
  35447344604470769706143152618009460708324719746851617857679678604499391808875930009808379277927064266370698769949305087785184000,
  35357961556423843793669027143253211843060065858103138140658372331965308116061959229672061396931184929010191056936294598025830000,
  35224027779459108532878671852410961830055447004063745762566051838697096716849361901711169848524714766405801923596165158087000000,
  35045712029004261396586209701768966547836042136492798823806249526079052801681258183048466740883449048622708217257833815560000000,
  34823238981399354993129046318654014859128119177468362645992343686146064076967352701342091023581842666215702777660973292000000000,
  34556888950807084134865313978957045306030138337954064378300636843327688394201302781407942029812277823364448224074061490000000000,
  34246997536020078737369597588597855350922458020114549766466068126406023412713444885728181367107174779558577256964525200000000000,
  33893955197610259239892537505479621522427426805933119881326964871599866009035338355926547167273539509096647694090100000000000000,
  33498206765953092528065162150265246301654093960431874868953419264363402899803184293805262127249114894644595870316700000000000000,
  33060250880746700145280746761032816221610495159763459772940663570794376005488383806492779357364842399810822386623000000000000000,
  32580639362732108686239429754716933005277749998610522326280314646295095059267738711926967175409936557134162549700000000000000000,
  32059976518406388069266964176938481071202717484944610788287109976662493470567878982812187443496180866796869406800000000000000000,
  31498918378604892320041751642794172530012429677858651782519979381943213244212433996096685740724716940143899820000000000000000000,
  30898171871912197633702879563457209842575813874064466707267449292897377769487838970828294455755175845133984500000000000000000000,
  30258493933943525335137432460407360056160194233555742196586701736815689304923288329738026270061225887656094000000000000000000000,
  29580690553619349113352395601887765623431390878783548359007683422333479172572091613176243188356316944832680000000000000000000000,
  28865615757635429246476985454492916535136036682072516457082704948833022005767030885460231417283536375744700000000000000000000000,
  28114170534408613491578939824033465616260592545493344273238002809080291129682481907266849272766352031488000000000000000000000000,
  27327301698855330835623808797941393752407911188743648324983440879731609473092580408416556324940107265564000000000000000000000000,
  26506000699434737721408901893668866101668336238188060921990801563795362180474323531815093265370743910380000000000000000000000000,
  25651302368961947884779355024075863286171245773097492259980905342998466445363721712536767640903463082100000000000000000000000000,
  24764283620768733025321495325140658936017041923925266581532581631082471809563986028438581475615169152000000000000000000000000000,
  23846062091859661263578619663002240932537101252809523849906060504396704322417147302255956992447581840000000000000000000000000000,
  22897794734781142327247795096509138086608892853874689898053816634362119509911516639335712576247363570000000000000000000000000000,
  21920676359989853595634388068952066232104955512151145674799749746304338298545409445189051110702721700000000000000000000000000000,
  20915938130576624232254279401903303662310087956682822230402221890957837049867312792959325826584514500000000000000000000000000000,
  19884846011274113243600999308091108461812221192456978006797685116815225931094075258945285093290439000000000000000000000000000000,
  18828699173755451394710039432120521439248717493988454676867893764642655093968647651748265124148290000000000000000000000000000000,
  17748828360324074556495065150893255100510439783160458360360826590830194655522316626285033979082690000000000000000000000000000000,
  16646594208217656045112823334409556769719290284381294138206358710915538355601693530258361991607700000000000000000000000000000000,
  15523385536933553840164816347540211111862081003126421240402400223702377722308966763510350762681200000000000000000000000000000000,
  14380617601299944235934592121622405012056290465997397168146736590350794051158042329033912459016900000000000000000000000000000000,
  13219730313627911708181334950898991471812170012788744304093926718038369539545472712778776423149200000000000000000000000000000000,
  12042186439581212309739552941804078780984719828281524483087786389959723268227087244842672494654000000000000000000000000000000000,
  10849469775429271259401843642929872300181550676698968888003604468621725181617868903473653384855000000000000000000000000000000000,
  9643083322053204400770190265624357266658590787633370866424624689347614061166652405350143972309000000000000000000000000000000000,
  8424547492702473015098581276204474344523971292451140409114024458202222893445255857718840762365000000000000000000000000000000000,
  7195398459796372059759958321680833375646730436714187492353301322285731986912224854425727345924000000000000000000000000000000000,
  5957186996138046583129384931847170045882494832151123976061785476064231385052950131549631469447000000000000000000000000000000000,
  4711479279598661743021814689100305980965735291941860627805332464667165904862514064004941860072000000000000000000000000000000000,
  3459867667862796423975366145372045155835722927827850254038738258579998446561437850300095645644000000000000000000000000000000000,
  2204058563143696628540050448635676472012800295450162440116868147913684205580339345712156062080500000000000000000000000000000000,
  947335598161927266771246363854571245435691877014451993772699077715385892606120507663898447183200000000000000000000000000000000]

/-- `case 89` (Util/Gauss_Legendre_Nodes_and_Weights.hpp:20065-20501), `nodes`. -/
def nodes89 : List Int := [
  -999639038864533459581454128691478560762616968769958303554594708412897070854533196149505112941629724489222835173975948448626148850,
  -998098605710273929484265080649175413772974293537890396984346036715484513754153246035253417638762276745011024101116277614339741680,
  -995329240406749760327228223128720527907400456695134301434134297333090049338391177359178022904994881713044951094011468930022678370,
  -991333738808665300673174703823355780369077757697648592299200947736011179830738447203472214181586869245466748862276586885655949360,
  -986116947861103674004151316045079423509046809324573813116991863016414191593820189678280835019790343191771703588267701691141496920,
  -979685276583876641129616524844196235463657067066525025844861803259944449956230120879069643053253645827544593115873790410484220590,
  -972046642748909359704164618602271290411580656481209280192500806124561090403187656001188662518667727170422117222387561630990814410,
  -963210454656535441853845356349271061107242443432106217683747945332317598545243202187472661666308134617182255126501338620120578920,
  -953187597292840940578782389765535649736866898982382920917523115316120800151180512203194297657301332895196294945357814677957649690,
  -941990418170214919067878689865133537803055273919929800134860054289007526287831687861870681087879555257512531892196746878796395580,
  -929632711823718603373074061197521139799938133929450657717256303919052748356786883844413880514510256941128814543866873218195874190,
  -916129702688823431211062425026411475724729245157031825422272421953831283777056150416195030399335085223289492811126694462976489270,
  -901498026283997752087531205278411079797077856094555703557302017097050359211835865718164103451863226093081977360162974057341165460,
  -885755708684469948280780672175162182257715685481859106680277205114653750306364203844213907528508866774065076685738108318087568720,
  -868922144297083719255345284077279828111552243214114404694794963889397252864618698477746975353400891598096567215147202022615191250,
  -851018071956677446875566874663942766276577842080003419042714861249714198333109920723764725987808751478995786568497813171832237670,
  -832065549370079127108473140185363885546512824237973281023180518447843094900857363768188891458257492122545605656278720514339122110,
  -812087925937486030236493416990236553536165745273050149009550515639831967302646937288531646157273736033347817034850765346789459870,
  -791109813983793371456487618748169042736933608791124992698850889858852444426752587528139351669863562166222907588873127704818962290,
  -769157058434801100328116588867057031076347256252120431117195997645000981028981803341549950743643574488953623173743122594452113340,
  -746256704975360009380889993613821922961289362253745590431804637773697841144772677293667858632060928790906696624371367049107052840,
  -722436966728508243370399960813563887274444523675469370167158380755516553042720353842779746539467547505255277367585408304829372100,
  -697727189496539905894596229470512996336165419449917765589678872802254354321949111861342341187492307690813095575382534243141749530,
  -672157815606759550822669967365789770755169446732129029385748864036002526973008078486990297958708732470482467967921032846841967870,
  -645760346406419848716586825259593922175885357652317009460595086392516550189692555950409784326718323082334870653699583869920804370,
  -618567303453019120698681242117347263161956898621047805534826374887574950598072498542203921211898162053809192753902544237777134210,
  -590612188447752393043094573999011226485338724136444106809088286894685178280822071696298228782917277684113745552798698024612162850,
  -561929441961464304933287778854821754218592230553197283474423354419216451625114157744064240556418094749242719144655399274325805180,
  -532554401003943956969124821197444503353687063598513557193114836180678137068954123150759709333476967900146004080603761330232918930,
  -502523255488829551445760041748311936732418898938242961355561639953121598371358797410713709916041445750586431920499041235787844590,
  -471873003647753163790075610801141928759135616995683991463885598561359864312702954411672281336909558600364083265693290967612395540,
  -440641406448651818594850294227868861455597466432359439700940712080972517665902894420522110441700382343177550040618295864727325380,
  -408866941074398818696415454976332084282891565849541469274429222906185772847741065971153981021410614240809533205512700912773137420,
  -376588753519067603880406152474985657055193252077508372769444026968068752178316223999125400677230668172487069265472832267687104430,
  -343846610360227952477910770481199456855663592636038412738519209840718002249353297793166166280762699711162991768907392054504231160,
  -310680849766689799743267191895015568366395471992434493362112669451450076679170221215333730801973793914892538661975441646663494730,
  -277132331802052117947072883935868743118113609404435083264003992109870492579874669423249151138794281090432805885460765450261701100,
  -243242388085282049589001028575769193603778540264810076662270996349419903632202808740684797081982249928084629197099743844582873960,
  -209052770870341755872910385827209083653770333530961005171655788673681532423436709143094321750353568479144279605773560471172382530,
  -174605601607596274075495096940797564323408444094077696760936910824120442878319418953808954638267667183415781636534456759496022530,
  -139943319050374196667503800108747821061331823349967111016175297930377626689990960169513422686742826315006280156831506147889721590,
  -105108626970613411698690916273986979269883239011060262191548463587231253338384984388099851564686807776737427437284091278055856350,
  -70144441548005792132557218331405756985659437405206175451443351648188836534144821537199462907797889410140306906085804815117591195,
  -35093838497457001384747158090892546695606879077764030833542017497475138339124267098236917018584709228552573792621008364444104850,
  0,
  35093838497457001384747158090892546695606879077764030833542017497475138339124267098236917018584709228552573792621008364444104850,
  70144441548005792132557218331405756985659437405206175451443351648188836534144821537199462907797889410140306906085804815117591195,
  105108626970613411698690916273986979269883239011060262191548463587231253338384984388099851564686807776737427437284091278055856350,
  139943319050374196667503800108747821061331823349967111016175297930377626689990960169513422686742826315006280156831506147889721590,
  174605601607596274075495096940797564323408444094077696760936910824120442878319418953808954638267667183415781636534456759496022530,
  209052770870341755872910385827209083653770333530961005171655788673681532423436709143094321750353568479144279605773560471172382530,
  243242388085282049589001028575769193603778540264810076662270996349419903632202808740684797081982249928084629197099743844582873960,
  277132331802052117947072883935868743118113609404435083264003992109870492579874669423249151138794281090432805885460765450261701100,
  310680849766689799743267191895015568366395471992434493362112669451450076679170221215333730801973793914892538661975441646663494730,
  343846610360227952477910770481199456855663592636038412738519209840718002249353297793166166280762699711162991768907392054504231160,
  376588753519067603880406152474985657055193252077508372769444026968068752178316223999125400677230668172487069265472832267687104430,
  408866941074398818696415454976332084282891565849541469274429222906185772847741065971153981021410614240809533205512700912773137420,
  440641406448651818594850294227868861455597466432359439700940712080972517665902894420522110441700382343177550040618295864727325380,
  471873003647753163790075610801141928759135616995683991463885598561359864312702954411672281336909558600364083265693290967612395540,
  502523255488829551445760041748311936732418898938242961355561639953121598371358797410713709916041445750586431920499041235787844590,
  532554401003943956969124821197444503353687063598513557193114836180678137068954123150759709333476967900146004080603761330232918930,
  561929441961464304933287778854821754218592230553197283474423354419216451625114157744064240556418094749242719144655399274325805180,
  590612188447752393043094573999011226485338724136444106809088286894685178280822071696298228782917277684113745552798698024612162850,
  618567303453019120698681242117347263161956898621047805534826374887574950598072498542203921211898162053809192753902544237777134210,
  645760346406419848716586825259593922175885357652317009460595086392516550189692555950409784326718323082334870653699583869920804370,
  672157815606759550822669967365789770755169446732129029385748864036002526973008078486990297958708732470482467967921032846841967870,
  697727189496539905894596229470512996336165419449917765589678872802254354321949111861342341187492307690813095575382534243141749530,
  722436966728508243370399960813563887274444523675469370167158380755516553042720353842779746539467547505255277367585408304829372100,
  746256704975360009380889993613821922961289362253745590431804637773697841144772677293667858632060928790906696624371367049107052840,
  769157058434801100328116588867057031076347256252120431117195997645000981028981803341549950743643574488953623173743122594452113340,
  791109813983793371456487618748169042736933608791124992698850889858852444426752587528139351669863562166222907588873127704818962290,
  812087925937486030236493416990236553536165745273050149009550515639831967302646937288531646157273736033347817034850765346789459870,
  832065549370079127108473140185363885546512824237973281023180518447843094900857363768188891458257492122545605656278720514339122110,
  851018071956677446875566874663942766276577842080003419042714861249714198333109920723764725987808751478995786568497813171832237670,
  868922144297083719255345284077279828111552243214114404694794963889397252864618698477746975353400891598096567215147202022615191250,
  885755708684469948280780672175162182257715685481859106680277205114653750306364203844213907528508866774065076685738108318087568720,
  901498026283997752087531205278411079797077856094555703557302017097050359211835865718164103451863226093081977360162974057341165460,
  916129702688823431211062425026411475724729245157031825422272421953831283777056150416195030399335085223289492811126694462976489270,
  929632711823718603373074061197521139799938133929450657717256303919052748356786883844413880514510256941128814543866873218195874190,
  941990418170214919067878689865133537803055273919929800134860054289007526287831687861870681087879555257512531892196746878796395580,
  953187597292840940578782389765535649736866898982382920917523115316120800151180512203194297657301332895196294945357814677957649690,
  963210454656535441853845356349271061107242443432106217683747945332317598545243202187472661666308134617182255126501338620120578920,
  972046642748909359704164618602271290411580656481209280192500806124561090403187656001188662518667727170422117222387561630990814410,
  979685276583876641129616524844196235463657067066525025844861803259944449956230120879069643053253645827544593115873790410484220590,
  986116947861103674004151316045079423509046809324573813116991863016414191593820189678280835019790343191771703588267701691141496920,
  991333738808665300673174703823355780369077757697648592299200947736011179830738447203472214181586869245466748862276586885655949360,
  995329240406749760327228223128720527907400456695134301434134297333090049338391177359178022904994881713044951094011468930022678370,
  998098605710273929484265080649175413772974293537890396984346036715484513754153246035253417638762276745011024101116277614339741680,
  999639038864533459581454128691478560762616968769958303554594708412897070854533196149505112941629724489222835173975948448626148850]

/-- `case 89` (Util/Gauss_Legendre_Nodes_and_Weights.hpp:20065-20501), `weights`. -/
def weights89 : List Nat := [
  926287105193472815530427432001525301335613313403645588065230123317274897121481489760881135893400000000000000000000000000000000,
  2155112582219113764635639125861117608349240152709784200355055522693569870939353498250480985303000000000000000000000000000000000,
  3383104792407455132634198967170551122430839983953228458928290682636086172870927852165570862729000000000000000000000000000000000,
  4607087343463241433054816369041158077102566903322751926464485180421891835665349592367977777811000000000000000000000000000000000,
  5825425788770107459644653751302470667268832620287230214218763625560121854948469458082554464550000000000000000000000000000000000,
  7036596870989114137390198788167184363052806395469891969135266853045290390677105258684954258360000000000000000000000000000000000,
  8239102525389078730572850887601681079317640958024273016305180446148079884147875265024587560670000000000000000000000000000000000,
  9431459260797890539710939610783755826505233948653617909183681687835862975414554550785619049595000000000000000000000000000000000,
  10612197289972188032680725377726351301449563461195240625912112855513014233424618166105284581882000000000000000000000000000000000,
  11779861580874892176619155388887377660508632757192763647096952293902582930322573306094974483786000000000000000000000000000000000,
  12933013392602677291586497467650060629318624348184330255383080522622977133118880745715134790498000000000000000000000000000000000,
  14070231948644482813887226094870319836230435573270181051640667309298189827914501775565113046308000000000000000000000000000000000,
  15190116144666123397473142377539962772154425189065286729889468169737587874644839440406598064471000000000000000000000000000000000,
  16291286254792384577540964762599688414220256833915559710180535209728578458010526235114625021254100000000000000000000000000000000,
  17372385621502401669640844547363497746682170663121349618356179769820276301214018805566202271584820000000000000000000000000000000,
  18432082321784115675845960628347681847504335577471770441361034853007270264055978566825876963371880000000000000000000000000000000,
  19469070805151873138674525787874634020795919247141700330709168186408705498643895937218443232789090000000000000000000000000000000,
  20482073500400270212245011276061895578701682291224875983967117136758137665532976178408117170914966000000000000000000000000000000,
  21469842388561140843412685655361574814603857308733048809634763818198422481259392272368550017257384500000000000000000000000000000,
  22431160539836367128358836128051873703381610473335838486542947517316815361392173092084074761033257400000000000000000000000000000,
  23364843612455445827168754261384119880295214241579521177665032774989606285029552122427807205721665230000000000000000000000000000,
  24269741311522339273661620371475403776368196896768171258388553780775352673754575183128562210218034153000000000000000000000000000,
  25144738806002568622815516093645455017507875636946887710637858785006440715009726308459622877061609155000000000000000000000000000,
  25988758102073836251481409477166963679568933763332152335963624705504465207661862834181275042505106673500000000000000000000000000,
  26800759371129177712565635331841085035509793873097006234739442683423746777818641731187570342535967151890000000000000000000000000,
  27579742230784582533477362029662171971652124084018149595222496786349298925333855781902705947799031866638000000000000000000000000,
  28324746977305207228034840201624652184719559798820010507423860672045265212563186663468657243399580086674600000000000000000000000,
  29034855767926811830019323855203005296277900766607988548123251811051610088986197382324329206726256908784650000000000000000000000,
  29709193751612459627302028009164769310717656663208367131145538929270822731805691020069160600750218069388199000000000000000000000,
  30346930146849129343407713543225230349733681786484243393347081631160477177929556346033220892820786249785802500000000000000000000,
  30947279265154844789478959785801512865352013020530930699719700696848704800263343822605475296792602596000969380000000000000000000,
  31509501479034283658798569159113600442786626630324254640370557083120933046263135013689623058044191221633097009000000000000000000,
  32032904133189585507031563586469410877321279421994594080557586278516108522354413082623153992061471534147119361600000000000000000,
  32516842397863206967585666713520840200857975661445615188390505411340845585122086435663818795045603837527912091620000000000000000,
  32960720063261117074292282229929658290925867439956951774520621934567838343288315500508507793097643891327194552027000000000000000,
  33363990274077320939719259000309819108433877263605083540792373910299525609712015850077222665156025937958916360891060000000000000,
  33726156203214570706309503898698419244429632078002552162649753262466817318573539079255580797962711945223470445289250000000000000,
  34046771663871087167355859748412385333879281959942785302443485505907993335601000564770490735152042561000198384486458000000000000,
  34325441659239087817965419842009141419943083899133668952688380586340300290254714773454959282502389779426983585850650394000000000,
  34561822869137808136433825732341567187795507114893270854574871998301315530380995543143419866071591395770479734037929568000000000,
  34755624072981420920811511875417882277438344110275561025747903646432744725877640089563727819498682427986972033596721420040000000,
  34906606508560709891011491580854016352304346139923587477695302409820094418319985005165739175714575771496118912208967584345500000,
  35014584166196443369153043596766517795616022991511086330187611957578710813462397503266027738671239359981921029374649196296060000,
  35079424017902025317167595307705753010267806452208530699005262814817664581851544548062120777271473112541199860525628818214642200,
  35101046181273077031623888687984513438766220611425320809338716360185162742925072656743200274699096613318794811017877605458147654,
  35079424017902025317167595307705753010267806452208530699005262814817664581851544548062120777271473112541199860525628818214642200,
  35014584166196443369153043596766517795616022991511086330187611957578710813462397503266027738671239359981921029374649196296060000,
  34906606508560709891011491580854016352304346139923587477695302409820094418319985005165739175714575771496118912208967584345500000,
  34755624072981420920811511875417882277438344110275561025747903646432744725877640089563727819498682427986972033596721420040000000,
  34561822869137808136433825732341567187795507114893270854574871998301315530380995543143419866071591395770479734037929568000000000,
  34325441659239087817965419842009141419943083899133668952688380586340300290254714773454959282502389779426983585850650394000000000,
  34046771663871087167355859748412385333879281959942785302443485505907993335601000564770490735152042561000198384486458000000000000,
  33726156203214570706309503898698419244429632078002552162649753262466817318573539079255580797962711945223470445289250000000000000,
  33363990274077320939719259000309819108433877263605083540792373910299525609712015850077222665156025937958916360891060000000000000,
  32960720063261117074292282229929658290925867439956951774520621934567838343288315500508507793097643891327194552027000000000000000,
  32516842397863206967585666713520840200857975661445615188390505411340845585122086435663818795045603837527912091620000000000000000,
  32032904133189585507031563586469410877321279421994594080557586278516108522354413082623153992061471534147119361600000000000000000,
  31509501479034283658798569159113600442786626630324254640370557083120933046263135013689623058044191221633097009000000000000000000,
  30947279265154844789478959785801512865352013020530930699719700696848704800263343822605475296792602596000969380000000000000000000,
  30346930146849129343407713543225230349733681786484243393347081631160477177929556346033220892820786249785802500000000000000000000,
  29709193751612459627302028009164769310717656663208367131145538929270822731805691020069160600750218069388199000000000000000000000,
  29034855767926811830019323855203005296277900766607988548123251811051610088986197382324329206726256908784650000000000000000000000,
  28324746977305207228034840201624652184719559798820010507423860672045265212563186663468657243399580086674600000000000000000000000,
  27579742230784582533477362029662171971652124084018149595222496786349298925333855781902705947799031866638000000000000000000000000,
  26800759371129177712565635331841085035509793873097006234739442683423746777818641731187570342535967151890000000000000000000000000,
  25988758102073836251481409477166963679568933763332152335963624705504465207661862834181275042505106673500000000000000000000000000,
  25144738806002568622815516093645455017507875636946887710637858785006440715009726308459622877061609155000000000000000000000000000,
  24269741311522339273661620371475403776368196896768171258388553780775352673754575183128562210218034153000000000000000000000000000,
  23364843612455445827168754261384119880295214241579521177665032774989606285029552122427807205721665230000000000000000000000000000,
  22431160539836367128358836128051873703381610473335838486542947517316815361392173092084074761033257400000000000000000000000000000,
  21469842388561140843412685655361574814603857308733048809634763818198422481259392272368550017257384500000000000000000000000000000,
  20482073500400270212245011276061895578701682291224875983967117136758137665532976178408117170914966000000000000000000000000000000,
  19469070805151873138674525787874634020795919247141700330709168186408705498643895937218443232789090000000000000000000000000000000,
  18432082321784115675845960628347681847504335577471770441361034853007270264055978566825876963371880000000000000000000000000000000,
  17372385621502401669640844547363497746682170663121349618356179769820276301214018805566202271584820000000000000000000000000000000,
  16291286254792384577540964762599688414220256833915559710180535209728578458010526235114625021254100000000000000000000000000000000,
  15190116144666123397473142377539962772154425189065286729889468169737587874644839440406598064471000000000000000000000000000000000,
  14070231948644482813887226094870319836230435573270181051640667309298189827914501775565113046308000000000000000000000000000000000,
  12933013392602677291586497467650060629318624348184330255383080522622977133118880745715134790498000000000000000000000000000000000,
  11779861580874892176619155388887377660508632757192763647096952293902582930322573306094974483786000000000000000000000000000000000,
  10612197289972188032680725377726351301449563461195240625912112855513014233424618166105284581882000000000000000000000000000000000,
  9431459260797890539710939610783755826505233948653617909183681687835862975414554550785619049595000000000000000000000000000000000,
  8239102525389078730572850887601681079317640958024273016305180446148079884147875265024587560670000000000000000000000000000000000,
  7036596870989114137390198788167184363052806395469891969135266853045290390677105258684954258360000000000000000000000000000000000,
  5825425788770107459644653751302470667268832620287230214218763625560121854948469458082554464550000000000000000000000000000000000,
  4607087343463241433054816369041158077102566903322751926464485180421891835665349592367977777811000000000000000000000000000000000,
  3383104792407455132634198967170551122430839983953228458928290682636086172870927852165570862729000000000000000000000000000000000,
  2155112582219113764635639125861117608349240152709784200355055522693569870939353498250480985303000000000000000000000000000000000,
  926287105193472815530427432001525301335613313403645588065230123317274897121481489760881135893400000000000000000000000000000000]

/-- `case 90` (Util/Gauss_Legendre_Nodes_and_Weights.hpp:20503-20941), `nodes`. -/
def nodes90 : List Int := [
  -999646971286638437463248450036529905440311818735888550851283240076410367509310984313536673375940891533358779037150033176324429480,
  -998140379938568153561305618953067835072376215143348148307901244192069200515657519897979914104979626572349171952016858819269291830,
  -995431812058344663926755406970786433156976657738727864325674698856608671260772288777561299295276351774266553820037043238710977550,
  -991523928811062786129146924302179488806012429036629870111605519494180717765526856292277711502155211452112540054970935679566969450,
  -986421365057832848734254057112423009228298197871279078831657869119425933128189520155790376990048832610302369557054172536394822140,
  -980130251345148385458953222812292650415564926566829587530756133212391574034732212448471709388217262071943507535429135413148944440,
  -972658162090193139997464830445228620133928785452382721323962429035652968986253769679656813864874503181476168202013022824622771280,
  -964014098171505483393666591970162318013595118462241411146542431027976095393342556616977199143150234578969503744175415711300135060,
  -954208473881500336160720263369480238290725719172361129999231560331310586518932234104765183332089951359569972432483620154592956110,
  -943253103645357768153575216428200747545501429577251915985517916162674909250726329815523486039055098741921067092245036506607535970,
  -931161187500432007005846612229457533923037069967880309730889909013913114385251597942426942073512076055896434541099257303938814040,
  -917947295066586383372356315970884314118808835378778405310435646883012192277706800510898131741503476890215696732236594004418505510,
  -903627347931302693869985582615327240148166682490192770301662486292041331792420706134553064890469228968480875237176819345765591590,
  -888218600434745981298375725559433993133040443310076325261775871694083940877887642942655027668635196655977455160481017323897884100,
  -871739618862903434474027887638563424103463236715035852926239086428153390937173203172196241914452708593226583853499110734346799710,
  -854210259067071882286021508597155444032545870695895225243583526505884407572390615620866947753046924455550498047220605089676006630,
  -835651642533377045564199152014447703577986735931598304670940332280113158131432470742927143520164877311877808615334585565006615500,
  -816086130929481056443753617370403895186094353927190017774372804361017827034988629045338808656892698388662597956576490103020058550,
  -795537299158248134863600587483460045320192634246573680784013611407586709938865014625121996431242335145733374020858901040689079880,
  -774029906950334246806957991699956636104425892790894754565566112152199325084738961275893434864531059643836529829086238708469965430,
  -751589869029638468178415202477978628929505460087142064770824731011053147800229437719482714340667328510746869829167820389996125950,
  -728244223887390363625799497685853831635049103484751920460250243027273077411715657384087550100127039789128153612971445583893266560,
  -704021101202391143555469364207119098830043987389267835954002217776922328486764400542104910821641945335756063613250117085224850060,
  -678949687946597146181268645280289087755984500639587643633887662038084642493009415582039501450116386036143706154433982719172744590,
  -653060193216842191961262116286676474307119022721300106817624065616629318477639649397530623856524426942651227400411696230713767790,
  -626383811835045126762609331696754194675158059243979083018620462061539549292278110214844097031763264556265407122668255647993500780,
  -598952686760742185888769383038813747359727746729126865538742133727963590431539809342452293677812011896659154185579488954965593840,
  -570799870361220978705361671412247345057625373003680378365166307578708129598797127197288426329592205771914937800718277237058218670,
  -541959284585913426189304504840911877628992181594799665782574725973889029984945958340518349907900459423384089333058478572823736180,
  -512465680093027970988462488278230420909134734724569028107689710329409175517822512983595759905376470171720099042472955375989640370,
  -482354594377665692520121221950974222913029135565124695313056665465688949977169914976093316614681373434727416916827114474745461530,
  -451662308951869367576378632954482854076030200124386270103986294084682745963861164703437301572100781038211246404707726393047286410,
  -420425805628197756101395445870356536543129323971209248967386013071215493801055220784812639366756177446247529601036193251997979360,
  -388682721959498206776509085806602300400947990159291589424724259519276987517790559007135790510598657451995774883279426878904358530,
  -356471305888567846131188515045608594746750167628365128852812551067304271397784323630656207896473613412445801486075890871579167490,
  -323830369662345966511395248499410078831102459907956516990026505846221425446857823961328465765562214624967918025840526986518093850,
  -290799243066166651549602120227442527846327543300500202050616601393275330656165753784529552145828555166347813269216738954885548340,
  -257417726034420129920887566793180033171913824302447017219444609491196001242687257497350173362112030955063085497658106353043073590,
  -223726040694722859268958407399448139355602205857815495318526964169448878456126737656634617354097781894785332725409462404808622730,
  -189764782903379019020874253181167886653503082453265743079439158267266370478074493905934396658068235792530639094002418189476539100,
  -155574873330529119511405126371919786866127410301570827310590306460001101220610402124074511587416471945770124973135827987928033010,
  -121197508153924082968749277397529167925153553154092804417450478031449884974466312502584913909297149260535612014249313591976004830,
  -86674109420734770085236546477084716619208290596072430223421938247722002760558823542873931144719873064067542903247274264503519456,
  -52046275137206949059278730384284851054463381265296242726842241331559914781585131706783627670755002409637609586401712945026043573,
  -17355729146299652461298372708181882552152869246174451391870941486761083026633571950745520127019299566734280933352932879126612439,
  17355729146299652461298372708181882552152869246174451391870941486761083026633571950745520127019299566734280933352932879126612439,
  52046275137206949059278730384284851054463381265296242726842241331559914781585131706783627670755002409637609586401712945026043573,
  86674109420734770085236546477084716619208290596072430223421938247722002760558823542873931144719873064067542903247274264503519456,
  121197508153924082968749277397529167925153553154092804417450478031449884974466312502584913909297149260535612014249313591976004830,
  155574873330529119511405126371919786866127410301570827310590306460001101220610402124074511587416471945770124973135827987928033010,
  189764782903379019020874253181167886653503082453265743079439158267266370478074493905934396658068235792530639094002418189476539100,
  223726040694722859268958407399448139355602205857815495318526964169448878456126737656634617354097781894785332725409462404808622730,
  257417726034420129920887566793180033171913824302447017219444609491196001242687257497350173362112030955063085497658106353043073590,
  290799243066166651549602120227442527846327543300500202050616601393275330656165753784529552145828555166347813269216738954885548340,
  323830369662345966511395248499410078831102459907956516990026505846221425446857823961328465765562214624967918025840526986518093850,
  356471305888567846131188515045608594746750167628365128852812551067304271397784323630656207896473613412445801486075890871579167490,
  388682721959498206776509085806602300400947990159291589424724259519276987517790559007135790510598657451995774883279426878904358530,
  420425805628197756101395445870356536543129323971209248967386013071215493801055220784812639366756177446247529601036193251997979360,
  451662308951869367576378632954482854076030200124386270103986294084682745963861164703437301572100781038211246404707726393047286410,
  482354594377665692520121221950974222913029135565124695313056665465688949977169914976093316614681373434727416916827114474745461530,
  512465680093027970988462488278230420909134734724569028107689710329409175517822512983595759905376470171720099042472955375989640370,
  541959284585913426189304504840911877628992181594799665782574725973889029984945958340518349907900459423384089333058478572823736180,
  570799870361220978705361671412247345057625373003680378365166307578708129598797127197288426329592205771914937800718277237058218670,
  598952686760742185888769383038813747359727746729126865538742133727963590431539809342452293677812011896659154185579488954965593840,
  626383811835045126762609331696754194675158059243979083018620462061539549292278110214844097031763264556265407122668255647993500780,
  653060193216842191961262116286676474307119022721300106817624065616629318477639649397530623856524426942651227400411696230713767790,
  678949687946597146181268645280289087755984500639587643633887662038084642493009415582039501450116386036143706154433982719172744590,
  704021101202391143555469364207119098830043987389267835954002217776922328486764400542104910821641945335756063613250117085224850060,
  728244223887390363625799497685853831635049103484751920460250243027273077411715657384087550100127039789128153612971445583893266560,
  751589869029638468178415202477978628929505460087142064770824731011053147800229437719482714340667328510746869829167820389996125950,
  774029906950334246806957991699956636104425892790894754565566112152199325084738961275893434864531059643836529829086238708469965430,
  795537299158248134863600587483460045320192634246573680784013611407586709938865014625121996431242335145733374020858901040689079880,
  816086130929481056443753617370403895186094353927190017774372804361017827034988629045338808656892698388662597956576490103020058550,
  835651642533377045564199152014447703577986735931598304670940332280113158131432470742927143520164877311877808615334585565006615500,
  854210259067071882286021508597155444032545870695895225243583526505884407572390615620866947753046924455550498047220605089676006630,
  871739618862903434474027887638563424103463236715035852926239086428153390937173203172196241914452708593226583853499110734346799710,
  888218600434745981298375725559433993133040443310076325261775871694083940877887642942655027668635196655977455160481017323897884100,
  903627347931302693869985582615327240148166682490192770301662486292041331792420706134553064890469228968480875237176819345765591590,
  917947295066586383372356315970884314118808835378778405310435646883012192277706800510898131741503476890215696732236594004418505510,
  931161187500432007005846612229457533923037069967880309730889909013913114385251597942426942073512076055896434541099257303938814040,
  943253103645357768153575216428200747545501429577251915985517916162674909250726329815523486039055098741921067092245036506607535970,
  954208473881500336160720263369480238290725719172361129999231560331310586518932234104765183332089951359569972432483620154592956110,
  964014098171505483393666591970162318013595118462241411146542431027976095393342556616977199143150234578969503744175415711300135060,
  972658162090193139997464830445228620133928785452382721323962429035652968986253769679656813864874503181476168202013022824622771280,
  980130251345148385458953222812292650415564926566829587530756133212391574034732212448471709388217262071943507535429135413148944440,
  986421365057832848734254057112423009228298197871279078831657869119425933128189520155790376990048832610302369557054172536394822140,
  991523928811062786129146924302179488806012429036629870111605519494180717765526856292277711502155211452112540054970935679566969450,
  995431812058344663926755406970786433156976657738727864325674698856608671260772288777561299295276351774266553820037043238710977550,
  998140379938568153561305618953067835072376215143348148307901244192069200515657519897979914104979626572349171952016858819269291830,
  999646971286638437463248450036529905440311818735888550851283240076410367509310984313536673375940891533358779037150033176324429480]

/-- `case 90` (Util/Gauss_Legendre_Nodes_and_Weights.hpp:20503-20941), `weights`. -/
def weights90 : List Nat := [
  905932371214833093724514208676867618320676464809921793908778856929921935438791482381250732710600000000000000000000000000000000,
  2107778774526329891475705677866799551191756172309896328274482576584358514962253402939463054923000000000000000000000000000000000,
  3308867243336018195431783694826214269753290770166281036747505529267404559367588387518069258230000000000000000000000000000000000,
  4506123613674977864137996374642661607684247769089056549919236001900271567578433489982744378890000000000000000000000000000000000,
  5697981560747352600847822045359135397525222213385413583262177296876705890177420307814650371120000000000000000000000000000000000,
  6882983208463284314730070486969005525892781794630658361814138832494314289267738499822196427570000000000000000000000000000000000,
  8059694944620015658671787765681575498213655630902713525194138555714541847558058619005250365170000000000000000000000000000000000,
  9226696957741990940319698382356621534040884461660047704919773223110915240517564544057087089320000000000000000000000000000000000,
  10382582309893214613807706665243822422560042610310429125357047522602393601082812947152455615700000000000000000000000000000000000,
  11525957889148058850593763179488323303070005720976099953672524179464958834337230080749998078614000000000000000000000000000000000,
  12655445837168128868876023941617437157830025894770278749355795687364917078056169571980560314958000000000000000000000000000000000,
  13769685112337093430751403629405518669753359522209947583866879232937215225345672321870098381894000000000000000000000000000000000,
  14867333088043324050384579789600247494713053214615591053705446902553799917901732560832095525091000000000000000000000000000000000,
  15947067151006639013206801337214019169747478056063988758575859908834024053707640017308941544425700000000000000000000000000000000,
  17007586285222675709397334121383567067260640784128067831636280555276102544696143742702014776879800000000000000000000000000000000,
  18047612634460236164049707391914166828044737535825262430152443069407336637338015901712977898586820000000000000000000000000000000,
  19065893039137318425323530126264833521490006601438007510813786184333749762086792713673042083665640000000000000000000000000000000,
  20061200544639595964532472614240155749536707727755420644623232805813571463213555011104482508861515000000000000000000000000000000,
  21032335878722563117062319621424460197758004258622551375582458960610977992920539865636286484737278000000000000000000000000000000,
  21978128895934133838691818839851066365108011943617756092437039202473878749787056741958832800667706100000000000000000000000000000,
  22897439987163184634988638988832936797364964201270083865089374728592330235259762088074693150103569580000000000000000000000000000,
  23789161452528723210100884447132163190365920446777042352702653458923843409986617385008197639632962040000000000000000000000000000,
  24652218835904852935966062062970488710445484215638138328174160221835269935748412988605960781176085833000000000000000000000000000,
  25485572219443228484467320747637061484795408523500536532951818637666843311749092470163101841911845281000000000000000000000000000,
  26288217476514587361595888297323740561455387688136715932236342049527133432975237476318419296342971638170000000000000000000000000,
  27059187481547958521614235449652091153381614789593221335138760553006235465863803653599032099323003562640000000000000000000000000,
  27797553275302275158038649777360197525125091212053728682716386389005080345878031393009251682826192898356000000000000000000000000,
  28502425184161416318755333930955794488598662621623718063261269307142766833496893796556200586965755695810900000000000000000000000,
  29172953892100742486557990630161588710347347030590461122836944212677296722764435400389633537911048597585010000000000000000000000,
  29808331464031275487147835458279810798148558042053080483925200283357578399653001604351338171979536176886064000000000000000000000,
  30407792319286952690394330938961046246273997148838717280005641204544946966092190663523116576705201263710945300000000000000000000,
  30970614154080920945936604918036810668735827946136534457803336884873844036995423912646047028921672631237983590000000000000000000,
  31496118811818636076957930452957702214649522147671039465838545658324182187830863164256710149275114456174273396900000000000000000,
  31983673100218576039455975435444861312672669470922392103631026435709898396542530623468588484667009578274505767510000000000000000,
  32432689554255616911789544051550198821346778287873066926137930657393712719183519284387761991419730890595378533198000000000000000,
  32842627144007504578630284799538008444370208110765286853770966343930553669963106199851379538002739223031345626898400000000000000,
  33212991926551316514040829086579510532808865271968942430131692843892130148531774247821259035038096870081694332333380000000000000,
  33543337641124276682933106938648013608014160837702099165277325208869076394623677915487327964118138203298306544436661500000000000,
  33833266246831687257927508246488357834108043354226238508994578938936258787355276047128823236110040837342058058157435390000000000,
  34082428402253995463605021759988284132234984287141659499161378934895532984501685660770904235641933212820725405671296462000000000,
  34290523886375041931697305028144077756466278001016189904589423579933953040875859996157251585353111030787292506101990424040000000,
  34457301960324256174595638704569536322492773237564424936956721889701844590064332667824965926675128864235118661596090217392000000,
  34582561669496891418053797308405323683875270083617706727644853349945830455069433191475551127490536184970291921469921045698150000,
  34666152085688240188272308521948073209460159482684001117160880055599211574553442408018302655937525873913414902938528392705496000,
  34707972488950057920460134124407822842967434413347583930043763087163286249100385550903683984471870237224950916690661661685323750,
  34707972488950057920460134124407822842967434413347583930043763087163286249100385550903683984471870237224950916690661661685323750,
  34666152085688240188272308521948073209460159482684001117160880055599211574553442408018302655937525873913414902938528392705496000,
  34582561669496891418053797308405323683875270083617706727644853349945830455069433191475551127490536184970291921469921045698150000,
  34457301960324256174595638704569536322492773237564424936956721889701844590064332667824965926675128864235118661596090217392000000,
  34290523886375041931697305028144077756466278001016189904589423579933953040875859996157251585353111030787292506101990424040000000,
  34082428402253995463605021759988284132234984287141659499161378934895532984501685660770904235641933212820725405671296462000000000,
  33833266246831687257927508246488357834108043354226238508994578938936258787355276047128823236110040837342058058157435390000000000,
  33543337641124276682933106938648013608014160837702099165277325208869076394623677915487327964118138203298306544436661500000000000,
  33212991926551316514040829086579510532808865271968942430131692843892130148531774247821259035038096870081694332333380000000000000,
  32842627144007504578630284799538008444370208110765286853770966343930553669963106199851379538002739223031345626898400000000000000,
  32432689554255616911789544051550198821346778287873066926137930657393712719183519284387761991419730890595378533198000000000000000,
  31983673100218576039455975435444861312672669470922392103631026435709898396542530623468588484667009578274505767510000000000000000,
  31496118811818636076957930452957702214649522147671039465838545658324182187830863164256710149275114456174273396900000000000000000,
  30970614154080920945936604918036810668735827946136534457803336884873844036995423912646047028921672631237983590000000000000000000,
  30407792319286952690394330938961046246273997148838717280005641204544946966092190663523116576705201263710945300000000000000000000,
  29808331464031275487147835458279810798148558042053080483925200283357578399653001604351338171979536176886064000000000000000000000,
  29172953892100742486557990630161588710347347030590461122836944212677296722764435400389633537911048597585010000000000000000000000,
  28502425184161416318755333930955794488598662621623718063261269307142766833496893796556200586965755695810900000000000000000000000,
  27797553275302275158038649777360197525125091212053728682716386389005080345878031393009251682826192898356000000000000000000000000,
  27059187481547958521614235449652091153381614789593221335138760553006235465863803653599032099323003562640000000000000000000000000,
  26288217476514587361595888297323740561455387688136715932236342049527133432975237476318419296342971638170000000000000000000000000,
  25485572219443228484467320747637061484795408523500536532951818637666843311749092470163101841911845281000000000000000000000000000,
  24652218835904852935966062062970488710445484215638138328174160221835269935748412988605960781176085833000000000000000000000000000,
  23789161452528723210100884447132163190365920446777042352702653458923843409986617385008197639632962040000000000000000000000000000,
  22897439987163184634988638988832936797364964201270083865089374728592330235259762088074693150103569580000000000000000000000000000,
  21978128895934133838691818839851066365108011943617756092437039202473878749787056741958832800667706100000000000000000000000000000,
  21032335878722563117062319621424460197758004258622551375582458960610977992920539865636286484737278000000000000000000000000000000,
  20061200544639595964532472614240155749536707727755420644623232805813571463213555011104482508861515000000000000000000000000000000,
  19065893039137318425323530126264833521490006601438007510813786184333749762086792713673042083665640000000000000000000000000000000,
  18047612634460236164049707391914166828044737535825262430152443069407336637338015901712977898586820000000000000000000000000000000,
  17007586285222675709397334121383567067260640784128067831636280555276102544696143742702014776879800000000000000000000000000000000,
  15947067151006639013206801337214019169747478056063988758575859908834024053707640017308941544425700000000000000000000000000000000,
  14867333088043324050384579789600247494713053214615591053705446902553799917901732560832095525091000000000000000000000000000000000,
  13769685112337093430751403629405518669753359522209947583866879232937215225345672321870098381894000000000000000000000000000000000,
  12655445837168128868876023941617437157830025894770278749355795687364917078056169571980560314958000000000000000000000000000000000,
  11525957889148058850593763179488323303070005720976099953672524179464958834337230080749998078614000000000000000000000000000000000,
  10382582309893214613807706665243822422560042610310429125357047522602393601082812947152455615700000000000000000000000000000000000,
  9226696957741990940319698382356621534040884461660047704919773223110915240517564544057087089320000000000000000000000000000000000,
  8059694944620015658671787765681575498213655630902713525194138555714541847558058619005250365170000000000000000000000000000000000,
  6882983208463284314730070486969005525892781794630658361814138832494314289267738499822196427570000000000000000000000000000000000,
  5697981560747352600847822045359135397525222213385413583262177296876705890177420307814650371120000000000000000000000000000000000,
  4506123613674977864137996374642661607684247769089056549919236001900271567578433489982744378890000000000000000000000000000000000,
  3308867243336018195431783694826214269753290770166281036747505529267404559367588387518069258230000000000000000000000000000000000,
  2107778774526329891475705677866799551191756172309896328274482576584358514962253402939463054923000000000000000000000000000000000,
  905932371214833093724514208676867618320676464809921793908778856929921935438791482381250732710600000000000000000000000000000000]

end Verif.Gauss
