/-!
The literals of `Util/Gauss_Legendre_Nodes_and_Weights.hpp` for 1 to 64 nodes, in the order of the
assignments, as numerators over `10^129` (no literal has more decimals). No import.
-/

namespace Verif.Gauss

/-- `case 1` (Util/Gauss_Legendre_Nodes_and_Weights.hpp:23-30), `nodes`. -/
def nodes1 : List Int := [
  0]

/-- `case 1` (Util/Gauss_Legendre_Nodes_and_Weights.hpp:23-30), `weights`. -/
def weights1 : List Nat := [
  2000000000000000000000000000000000000000000000000000000000000000000000000000000000000000000000000000000000000000000000000000000000]

/-- `case 2` (Util/Gauss_Legendre_Nodes_and_Weights.hpp:32-44), `nodes`. -/
def nodes2 : List Int := [
  -577350269189625764509148780501957455647601751270126876018602326483977672302933345693715395585749525225208713805135567676656648360,
  577350269189625764509148780501957455647601751270126876018602326483977672302933345693715395585749525225208713805135567676656648360]

/-- `case 2` (Util/Gauss_Legendre_Nodes_and_Weights.hpp:32-44), `weights`. -/
def weights2 : List Nat := [
  1000000000000000000000000000000000000000000000000000000000000000000000000000000000000000000000000000000000000000000000000000000000,
  1000000000000000000000000000000000000000000000000000000000000000000000000000000000000000000000000000000000000000000000000000000000]

/-- `case 3` (Util/Gauss_Legendre_Nodes_and_Weights.hpp:46-64), `nodes`. -/
def nodes3 : List Int := [
  -774596669241483377035853079956479922166584341058318165317514753222696618387395806703857475371734703583260441372189929402637908090,
  0,
  774596669241483377035853079956479922166584341058318165317514753222696618387395806703857475371734703583260441372189929402637908090]

/-- `case 3` (Util/Gauss_Legendre_Nodes_and_Weights.hpp:46-64), `weights`. -/
def weights3 : List Nat := [
  555555555555555555555555555555555555555555555555555555555555555555555555555555555555555555555555555555555555555555555555555555600,
  888888888888888888888888888888888888888888888888888888888888888888888888888888888888888888888888888888888888888888888888888888890,
  555555555555555555555555555555555555555555555555555555555555555555555555555555555555555555555555555555555555555555555555555555600]

/-- `case 4` (Util/Gauss_Legendre_Nodes_and_Weights.hpp:66-90), `nodes`. -/
def nodes4 : List Int := [
  -861136311594052575223946488892809505095725379629717637615721920906529471495048865704162339884479305210576920931978176324963743840,
  -339981043584856264802665759103244687200575869770914352592953976821020030463237034477875280435554811548960239520746493213584500320,
  339981043584856264802665759103244687200575869770914352592953976821020030463237034477875280435554811548960239520746493213584500320,
  861136311594052575223946488892809505095725379629717637615721920906529471495048865704162339884479305210576920931978176324963743840]

/-- `case 4` (Util/Gauss_Legendre_Nodes_and_Weights.hpp:66-90), `weights`. -/
def weights4 : List Nat := [
  347854845137453857373063949221999407235348695833893540492529319518751867465910351721983767732258159509798103904763502154424442300,
  652145154862546142626936050778000592764651304166106459507470680481248132534089648278016232267741840490201896095236497845575557700,
  652145154862546142626936050778000592764651304166106459507470680481248132534089648278016232267741840490201896095236497845575557700,
  347854845137453857373063949221999407235348695833893540492529319518751867465910351721983767732258159509798103904763502154424442300]

/-- `case 5` (Util/Gauss_Legendre_Nodes_and_Weights.hpp:92-120), `nodes`. -/
def nodes5 : List Int := [
  -906179845938663992797626878299392965125651910762530862873762286543770794916686846941142989553542261911583624816705116093202066010,
  -538469310105683091036314420700208804967286606905559956202231627059471185367755291035803667250570931571367057232104349551081691220,
  0,
  538469310105683091036314420700208804967286606905559956202231627059471185367755291035803667250570931571367057232104349551081691220,
  906179845938663992797626878299392965125651910762530862873762286543770794916686846941142989553542261911583624816705116093202066010]

/-- `case 5` (Util/Gauss_Legendre_Nodes_and_Weights.hpp:92-120), `weights`. -/
def weights5 : List Nat := [
  236926885056189087514264040719917362643260002212414015582827888221717288403043098579993430493951444776109134608143325581262765000,
  478628670499366468041291514835638192912295553343141539972727667333838267152512456975562125061604110779446420947412229974292790000,
  568888888888888888888888888888888888888888888888888888888888888888888888888888888888888888888888888888888888888888888888888888890,
  478628670499366468041291514835638192912295553343141539972727667333838267152512456975562125061604110779446420947412229974292790000,
  236926885056189087514264040719917362643260002212414015582827888221717288403043098579993430493951444776109134608143325581262765000]

/-- `case 6` (Util/Gauss_Legendre_Nodes_and_Weights.hpp:122-156), `nodes`. -/
def nodes6 : List Int := [
  -932469514203152027812301554493994609134765737712289824872549616526613500844200196276288739921925985047863679726572834106587971380,
  -661209386466264513661399595019905347006448564395170070814526705852183496607143100944286403746461456429888371639275146679557346770,
  -238619186083196908630501721680711935418610630140021350181395164574274934275639842249224427257349131609072223097010687202955453040,
  238619186083196908630501721680711935418610630140021350181395164574274934275639842249224427257349131609072223097010687202955453040,
  661209386466264513661399595019905347006448564395170070814526705852183496607143100944286403746461456429888371639275146679557346770,
  932469514203152027812301554493994609134765737712289824872549616526613500844200196276288739921925985047863679726572834106587971380]

/-- `case 6` (Util/Gauss_Legendre_Nodes_and_Weights.hpp:122-156), `weights`. -/
def weights6 : List Nat := [
  171324492379170345040296142172732893526822501484043982398635439798945760542340154647927705426388669752116522069874404309191747000,
  360761573048138607569833513837716111661521892746745482289739240237140037837261718320962201988819347943117209140370798589879890000,
  467913934572691047389870343989550994811655605769210535311625319963914201620398127031110092584791982304766268789754797100928362600,
  467913934572691047389870343989550994811655605769210535311625319963914201620398127031110092584791982304766268789754797100928362600,
  360761573048138607569833513837716111661521892746745482289739240237140037837261718320962201988819347943117209140370798589879890000,
  171324492379170345040296142172732893526822501484043982398635439798945760542340154647927705426388669752116522069874404309191747000]

/-- `case 7` (Util/Gauss_Legendre_Nodes_and_Weights.hpp:158-196), `nodes`. -/
def nodes7 : List Int := [
  -949107912342758524526189684047851262400770937670617783548769103913063330354840140805730770027925724144300739666995216194195625810,
  -741531185599394439863864773280788407074147647141390260119955351967429874672180513792826832366863247059692518093112014243600054400,
  -405845151377397166906606412076961463347382014099370126387043251794663813226125655328312689727746587765286758666048018678014238980,
  0,
  405845151377397166906606412076961463347382014099370126387043251794663813226125655328312689727746587765286758666048018678014238980,
  741531185599394439863864773280788407074147647141390260119955351967429874672180513792826832366863247059692518093112014243600054400,
  949107912342758524526189684047851262400770937670617783548769103913063330354840140805730770027925724144300739666995216194195625810]

/-- `case 7` (Util/Gauss_Legendre_Nodes_and_Weights.hpp:158-196), `weights`. -/
def weights7 : List Nat := [
  129484966168869693270611432679082018328587402259946663977208638724655234972042308715625418162920845089484402001634427881065345000,
  279705391489276667901467771423779582486925065226598764537014032693618810430562676813240942901197618766323375213372051519135637000,
  381830050505118944950369775488975133878365083533862734751083451030705546434129708348684659344044801450314671764585357334492896000,
  417959183673469387755102040816326530612244897959183673469387755102040816326530612244897959183673469387755102040816326530612244900,
  381830050505118944950369775488975133878365083533862734751083451030705546434129708348684659344044801450314671764585357334492896000,
  279705391489276667901467771423779582486925065226598764537014032693618810430562676813240942901197618766323375213372051519135637000,
  129484966168869693270611432679082018328587402259946663977208638724655234972042308715625418162920845089484402001634427881065345000]

/-- `case 8` (Util/Gauss_Legendre_Nodes_and_Weights.hpp:198-242), `nodes`. -/
def nodes8 : List Int := [
  -960289856497536231683560868569472990428235234301452038271639777372424897743419284439438959263312268310424392817294176210238958160,
  -796666477413626739591553936475830436837171731615964832070170295039217305676473092147151927295725939019197453453097309265365649490,
  -525532409916328985817739049189246349041964243120392857750857099272454820768561272523961400193631982061909682924825260850710879380,
  -183434642495649804939476142360183980666757812912973782317188473699204474221542114116068223711123353745267658764286766608919601250,
  183434642495649804939476142360183980666757812912973782317188473699204474221542114116068223711123353745267658764286766608919601250,
  525532409916328985817739049189246349041964243120392857750857099272454820768561272523961400193631982061909682924825260850710879380,
  796666477413626739591553936475830436837171731615964832070170295039217305676473092147151927295725939019197453453097309265365649490,
  960289856497536231683560868569472990428235234301452038271639777372424897743419284439438959263312268310424392817294176210238958160]

/-- `case 8` (Util/Gauss_Legendre_Nodes_and_Weights.hpp:198-242), `weights`. -/
def weights8 : List Nat := [
  101228536290376259152531354309962190115394091051684957059003698064740178763470784860282739304045006558154389331413266707715494000,
  222381034453374470544355994426240884430130870051249564725909289293616814570449040853653142377197927842159266101212218123111440000,
  313706645877887287337962201986601313260328999002734937690263945074956271942173496961698076233928556049427574641077808616247247000,
  362683783378361982965150449277195612194146039894330540524823067566686734723906677324366042084828509550258769926296706552925821600,
  362683783378361982965150449277195612194146039894330540524823067566686734723906677324366042084828509550258769926296706552925821600,
  313706645877887287337962201986601313260328999002734937690263945074956271942173496961698076233928556049427574641077808616247247000,
  222381034453374470544355994426240884430130870051249564725909289293616814570449040853653142377197927842159266101212218123111440000,
  101228536290376259152531354309962190115394091051684957059003698064740178763470784860282739304045006558154389331413266707715494000]

/-- `case 9` (Util/Gauss_Legendre_Nodes_and_Weights.hpp:244-292), `nodes`. -/
def nodes9 : List Int := [
  -968160239507626089835576202903672870049404800491925329550023311849080374396600753061873749226894111602487591123317815990652281200,
  -836031107326635794299429788069734876544106718124675996104371979639455006881590118893946197025857540256375810391056186876792170040,
  -613371432700590397308702039341474184785720604940564692872812942281267346491001198583240013903568584578233489596859768561939711750,
  -324253423403808929038538014643336608571956260736973088827047476842186579535124249193098601698497567207777825717350737391171804560,
  0,
  324253423403808929038538014643336608571956260736973088827047476842186579535124249193098601698497567207777825717350737391171804560,
  613371432700590397308702039341474184785720604940564692872812942281267346491001198583240013903568584578233489596859768561939711750,
  836031107326635794299429788069734876544106718124675996104371979639455006881590118893946197025857540256375810391056186876792170040,
  968160239507626089835576202903672870049404800491925329550023311849080374396600753061873749226894111602487591123317815990652281200]

/-- `case 9` (Util/Gauss_Legendre_Nodes_and_Weights.hpp:244-292), `weights`. -/
def weights9 : List Nat := [
  81274388361574411971892158110523650675661720782410750711107676880686686308452062945578554702942576957794073317963038094590049000,
  180648160694857404058472031242912809514337821732040484498335906471357290544946269764594977303199704147607467960257793722679630000,
  260610696402935462318742869418632849771840204437299951939997002119610815668891244647646093095017401827387385535637650513318400000,
  312347077040002840068630406584443665598754861261904645554011165599143897324019316570121921888006353852295477318164697311639182000,
  330239355001259763164525069286974048878810783572688334593096497858402620307382212144116906021667926429831191735953640715545477450,
  312347077040002840068630406584443665598754861261904645554011165599143897324019316570121921888006353852295477318164697311639182000,
  260610696402935462318742869418632849771840204437299951939997002119610815668891244647646093095017401827387385535637650513318400000,
  180648160694857404058472031242912809514337821732040484498335906471357290544946269764594977303199704147607467960257793722679630000,
  81274388361574411971892158110523650675661720782410750711107676880686686308452062945578554702942576957794073317963038094590049000]

/-- `case 10` (Util/Gauss_Legendre_Nodes_and_Weights.hpp:294-348), `nodes`. -/
def nodes10 : List Int := [
  -973906528517171720077964012084452053428269946692382119231212066696595203234636159625723564956268556258233042518774211215022168600,
  -865063366688984510732096688423493048527543014965330452521959731845374755138055561356790728946045770694404631086411765168678300160,
  -679409568299024406234327365114873575769294711834809467664817188952558575395074924615078573570480379499833902047399315060836740840,
  -433395394129247190799265943165784162200071837656246496502701513143766989077703501225102757950117721223682935040998937947274224760,
  -148874338981631210884826001129719984617564859420691695707989253515903617355668521371177629799463691230031160805255338826102890180,
  148874338981631210884826001129719984617564859420691695707989253515903617355668521371177629799463691230031160805255338826102890180,
  433395394129247190799265943165784162200071837656246496502701513143766989077703501225102757950117721223682935040998937947274224760,
  679409568299024406234327365114873575769294711834809467664817188952558575395074924615078573570480379499833902047399315060836740840,
  865063366688984510732096688423493048527543014965330452521959731845374755138055561356790728946045770694404631086411765168678300160,
  973906528517171720077964012084452053428269946692382119231212066696595203234636159625723564956268556258233042518774211215022168600]

/-- `case 10` (Util/Gauss_Legendre_Nodes_and_Weights.hpp:294-348), `weights`. -/
def weights10 : List Nat := [
  66671344308688137593568809893331792857864834320158145128694881613412064084087101776785509685058877821090054714520419331487510000,
  149451349150580593145776339657697332402556639669427367835477268753238654726630010945947264634731951914005752561045436338234450000,
  219086362515982043995534934228163192458771870522677089880956543635199910652951281242683993177202192786591216872812887634766630000,
  269266719309996355091226921569469352859759938460883795800563276242153432319179276764226636709252760755595811450368698308692923000,
  295524224714752870173892994651338329421046717026853601354308029755995938217152329270356595793754216722717164401252558386818490800,
  295524224714752870173892994651338329421046717026853601354308029755995938217152329270356595793754216722717164401252558386818490800,
  269266719309996355091226921569469352859759938460883795800563276242153432319179276764226636709252760755595811450368698308692923000,
  219086362515982043995534934228163192458771870522677089880956543635199910652951281242683993177202192786591216872812887634766630000,
  149451349150580593145776339657697332402556639669427367835477268753238654726630010945947264634731951914005752561045436338234450000,
  66671344308688137593568809893331792857864834320158145128694881613412064084087101776785509685058877821090054714520419331487510000]

/-- `case 11` (Util/Gauss_Legendre_Nodes_and_Weights.hpp:350-408), `nodes`. -/
def nodes11 : List Int := [
  -978228658146056992803938001122857390771422408919784415425801065983663799380889988200319398167344769899347932998927873161596618170,
  -887062599768095299075157769303927266631675751225314384967411055537611313857372667442290595126597374158255564695132794001307669560,
  -730152005574049324093416252031153458049643062026130311978378339687013245058519229595423410971283700061986544502194758426628956130,
  -519096129206811815925725669458609554480227115119928489020922611486695926451072892825598780104549055281481215816090930712917361800,
  -269543155952344972331531985400861524679621862439052281623925631880057066223694735703821592244267301324437218670784420131703261030,
  0,
  269543155952344972331531985400861524679621862439052281623925631880057066223694735703821592244267301324437218670784420131703261030,
  519096129206811815925725669458609554480227115119928489020922611486695926451072892825598780104549055281481215816090930712917361800,
  730152005574049324093416252031153458049643062026130311978378339687013245058519229595423410971283700061986544502194758426628956130,
  887062599768095299075157769303927266631675751225314384967411055537611313857372667442290595126597374158255564695132794001307669560,
  978228658146056992803938001122857390771422408919784415425801065983663799380889988200319398167344769899347932998927873161596618170]

/-- `case 11` (Util/Gauss_Legendre_Nodes_and_Weights.hpp:350-408), `weights`. -/
def weights11 : List Nat := [
  55668567116173666482753720442548578728515625696898148348384285674155407280737543883691222072318845810296321028241974163805500000,
  125580369464904624634694299223940100197615791395403500663934010817914575132471277634687641714054530397865058545084521935984100000,
  186290210927734251426097641431655891691284748040203411781506404173872348008785502469330758517979586131100964538966335431561800000,
  233193764591990479918523704843175139431798172316958509027319722121932213218880995954039948438261684416551109191678731811292020000,
  262804544510246662180688869890509195372764677603144556380055371485512803339545253552416997017026705959132335234890568593081566000,
  272925086777900630714483528336342189156041969894783747597600411453225306039158853011666864480717294570108422922275736128549981360,
  262804544510246662180688869890509195372764677603144556380055371485512803339545253552416997017026705959132335234890568593081566000,
  233193764591990479918523704843175139431798172316958509027319722121932213218880995954039948438261684416551109191678731811292020000,
  186290210927734251426097641431655891691284748040203411781506404173872348008785502469330758517979586131100964538966335431561800000,
  125580369464904624634694299223940100197615791395403500663934010817914575132471277634687641714054530397865058545084521935984100000,
  55668567116173666482753720442548578728515625696898148348384285674155407280737543883691222072318845810296321028241974163805500000]

/-- `case 12` (Util/Gauss_Legendre_Nodes_and_Weights.hpp:410-474), `nodes`. -/
def nodes12 : List Int := [
  -981560634246719250690549090149280822960155199813731510462682121807793244318253982225257267890452235785556492372841273185245457030,
  -904117256370474856678465866119096192537596709213297546554075760681234795729235790486969427823733267811860382896410422348899719820,
  -769902674194304687036893833212818075984925750018931637664419064249116543108471224016424999223421910617617540454221856207040162850,
  -587317954286617447296702418940534280369098514048052481510270879667340699375895262435710764988748201909601559992928892677231069590,
  -367831498998180193752691536643717561256360141335409621311799879504089929516787873878734428500546577234633126395977145215135152180,
  -125233408511468915472441369463853129983396916305444273212921754748462056241389688742868298469491359594104598791320510973151599700,
  125233408511468915472441369463853129983396916305444273212921754748462056241389688742868298469491359594104598791320510973151599700,
  367831498998180193752691536643717561256360141335409621311799879504089929516787873878734428500546577234633126395977145215135152180,
  587317954286617447296702418940534280369098514048052481510270879667340699375895262435710764988748201909601559992928892677231069590,
  769902674194304687036893833212818075984925750018931637664419064249116543108471224016424999223421910617617540454221856207040162850,
  904117256370474856678465866119096192537596709213297546554075760681234795729235790486969427823733267811860382896410422348899719820,
  981560634246719250690549090149280822960155199813731510462682121807793244318253982225257267890452235785556492372841273185245457030]

/-- `case 12` (Util/Gauss_Legendre_Nodes_and_Weights.hpp:410-474), `weights`. -/
def weights12 : List Nat := [
  47175336386511827194615961485017060317029073994847089560505347003809721152038710670825907075414536096616101675596738579667480000,
  106939325995318430960254718193996224214570173470324880005126042102818993627497576540537318096316457413576359333141144161170300000,
  160078328543346226334652529543359071872011730490864177909899544157954225173291150681656552637057730527074877096812802627243800000,
  203167426723065921749064455809798376506518147274590146398594565797645632510472843795144395064605232431160429336863259964961370000,
  233492536538354808760849898924878056259409972199754874730523497821492000079411675280679026508563690466738756439708868833898543000,
  249147045813402785000562436042951210830460902569618831395351003116279427457288043031156800618042353064833476117877185833058511100,
  249147045813402785000562436042951210830460902569618831395351003116279427457288043031156800618042353064833476117877185833058511100,
  233492536538354808760849898924878056259409972199754874730523497821492000079411675280679026508563690466738756439708868833898543000,
  203167426723065921749064455809798376506518147274590146398594565797645632510472843795144395064605232431160429336863259964961370000,
  160078328543346226334652529543359071872011730490864177909899544157954225173291150681656552637057730527074877096812802627243800000,
  106939325995318430960254718193996224214570173470324880005126042102818993627497576540537318096316457413576359333141144161170300000,
  47175336386511827194615961485017060317029073994847089560505347003809721152038710670825907075414536096616101675596738579667480000]

/-- `case 13` (Util/Gauss_Legendre_Nodes_and_Weights.hpp:476-544), `nodes`. -/
def nodes13 : List Int := [
  -984183054718588149472829448807109611064990561925874908694007320428595237875626841860569287261418588401316395767351975831718083600,
  -917598399222977965206547836500719512390474790111683295895285345659659208589609914283485390340582924451051781021775107230697584960,
  -801578090733309912794206489582859890305615724790500029897384713859222116226640122030029874185317060252361603376094785075486852490,
  -642349339440340220643984606995515650071697398261576857389142407918643553144993574914388300114191555122246770264547193812404734950,
  -448492751036446852877912852127639867801921667441757878958282947458244092066217143645038208554733010096052635557135968576263976720,
  -230458315955134794065528121097988835211542375883531163469261497837162083688581950812802944764680129323851280249316341249564089040,
  0,
  230458315955134794065528121097988835211542375883531163469261497837162083688581950812802944764680129323851280249316341249564089040,
  448492751036446852877912852127639867801921667441757878958282947458244092066217143645038208554733010096052635557135968576263976720,
  642349339440340220643984606995515650071697398261576857389142407918643553144993574914388300114191555122246770264547193812404734950,
  801578090733309912794206489582859890305615724790500029897384713859222116226640122030029874185317060252361603376094785075486852490,
  917598399222977965206547836500719512390474790111683295895285345659659208589609914283485390340582924451051781021775107230697584960,
  984183054718588149472829448807109611064990561925874908694007320428595237875626841860569287261418588401316395767351975831718083600]

/-- `case 13` (Util/Gauss_Legendre_Nodes_and_Weights.hpp:476-544), `weights`. -/
def weights13 : List Nat := [
  40484004765315879520021592200986060041986545744988868135046607504994460512792710494420812433053161754325565767460084704447300000,
  92121499837728447914421775953797120923683999862236839088391547339593729727632926291897815755731972868846420618028111540528100000,
  138873510219787238463601776868871467621862718263298227646355016505772521534889535725181542854605625862409684276125989931584000000,
  178145980761945738280046691996097995512812650661016502986794440289145069498748723494716951222312701506967049720074394609783500000,
  207816047536888502312523219306052763386582609199503549219111119916538543565084432260595528046611926575982640705169072841678260000,
  226283180262897238412090186039776618434757737615557019864968548771575663120499971041826318666313929721126588910752683642655797000,
  232551553230873910194589515268835948156627477306797986118665439344760024080703401382722062042741363420684100004779325458646137970,
  226283180262897238412090186039776618434757737615557019864968548771575663120499971041826318666313929721126588910752683642655797000,
  207816047536888502312523219306052763386582609199503549219111119916538543565084432260595528046611926575982640705169072841678260000,
  178145980761945738280046691996097995512812650661016502986794440289145069498748723494716951222312701506967049720074394609783500000,
  138873510219787238463601776868871467621862718263298227646355016505772521534889535725181542854605625862409684276125989931584000000,
  92121499837728447914421775953797120923683999862236839088391547339593729727632926291897815755731972868846420618028111540528100000,
  40484004765315879520021592200986060041986545744988868135046607504994460512792710494420812433053161754325565767460084704447300000]

/-- `case 14` (Util/Gauss_Legendre_Nodes_and_Weights.hpp:546-620), `nodes`. -/
def nodes14 : List Int := [
  -986283808696812338841597266704052801676091407239225881644070811777749554132491637910646239665151752760261256294135857868985260310,
  -928434883663573517336391139377874264477039210409837618717962447482131093544359853111413905683657517636355126155988260360700857800,
  -827201315069764993189794742650394961039701101475081181560709054241479830810028873570426390137889545399124140627398653533327566120,
  -687292904811685470148019803019334137538401212747170675619266488628184896183133256947373070505211838410660363021679005472962743270,
  -515248636358154091965290718551188662308885282569306036951504769092784951832055660452072020350772892392290793290509013869527403560,
  -319112368927889760435671824168475466834261203533843956596650187257333440512792783164933705421346413180279315182609039449614564060,
  -108054948707343662066244650219834747611951605474237557040821061308013529011730007130100688176689367237450202642446647463809923260,
  108054948707343662066244650219834747611951605474237557040821061308013529011730007130100688176689367237450202642446647463809923260,
  319112368927889760435671824168475466834261203533843956596650187257333440512792783164933705421346413180279315182609039449614564060,
  515248636358154091965290718551188662308885282569306036951504769092784951832055660452072020350772892392290793290509013869527403560,
  687292904811685470148019803019334137538401212747170675619266488628184896183133256947373070505211838410660363021679005472962743270,
  827201315069764993189794742650394961039701101475081181560709054241479830810028873570426390137889545399124140627398653533327566120,
  928434883663573517336391139377874264477039210409837618717962447482131093544359853111413905683657517636355126155988260360700857800,
  986283808696812338841597266704052801676091407239225881644070811777749554132491637910646239665151752760261256294135857868985260310]

/-- `case 14` (Util/Gauss_Legendre_Nodes_and_Weights.hpp:546-620), `weights`. -/
def weights14 : List Nat := [
  35119460331751863031832876138191780619705609277127276581499890196416322837808270537676796998646463661421732476440551134558500000,
  80158087159760209805633277062854309583697785394594765201399065489571474457287169863536190819137755968622501590803884748795000000,
  121518570687903184689414809072476625956669345690074672291075392543159743892526492318819906270375007148915550653059256994281000000,
  157203167158193534569601938623842156605668037337323374969317043874768176369608298513958093362418076276853151999081188501885400000,
  185538397477937813741716590125157036248922602937331659020034925069098350263525444425552731146712222982561121505728918899077900000,
  205198463721295603965924065661218055710339061309419451716897290283367144825249720339431839991890895724369269442449428728453486000,
  215263853463157790195876443316260035274997558054128800219776392543618787353994604001024441410819578237256672332436770992948166000,
  215263853463157790195876443316260035274997558054128800219776392543618787353994604001024441410819578237256672332436770992948166000,
  205198463721295603965924065661218055710339061309419451716897290283367144825249720339431839991890895724369269442449428728453486000,
  185538397477937813741716590125157036248922602937331659020034925069098350263525444425552731146712222982561121505728918899077900000,
  157203167158193534569601938623842156605668037337323374969317043874768176369608298513958093362418076276853151999081188501885400000,
  121518570687903184689414809072476625956669345690074672291075392543159743892526492318819906270375007148915550653059256994281000000,
  80158087159760209805633277062854309583697785394594765201399065489571474457287169863536190819137755968622501590803884748795000000,
  35119460331751863031832876138191780619705609277127276581499890196416322837808270537676796998646463661421732476440551134558500000]

/-- `case 15` (Util/Gauss_Legendre_Nodes_and_Weights.hpp:622-700), `nodes`. -/
def nodes15 : List Int := [
  -987992518020485428489565718586612581146972817123761489999997515587388437369019424712722050368319144976675168439900792501939582370,
  -937273392400705904307758947710209471243996273515304457901363076350202973797045527950547586174268086597468240446031568449200951340,
  -848206583410427216200648320774216851366256174736992634095727558760675075174145485197607719750821480850903738357133399177465586310,
  -724417731360170047416186054613938009630899294584102563551423420704123781677925218996101097603134326269235985493819251120386564200,
  -570972172608538847537226737253910641238386396282749604853265417054195379869758579483414628569826144779126464970262570403511550190,
  -394151347077563369897207370981045468362752776158698255031165343951608957786961417975497114161659762025893521696356480024758478130,
  -201194093997434522300628303394596207812836454462637679615949724609948239003020187601836258067521059089679022573865094211894279280,
  0,
  201194093997434522300628303394596207812836454462637679615949724609948239003020187601836258067521059089679022573865094211894279280,
  394151347077563369897207370981045468362752776158698255031165343951608957786961417975497114161659762025893521696356480024758478130,
  570972172608538847537226737253910641238386396282749604853265417054195379869758579483414628569826144779126464970262570403511550190,
  724417731360170047416186054613938009630899294584102563551423420704123781677925218996101097603134326269235985493819251120386564200,
  848206583410427216200648320774216851366256174736992634095727558760675075174145485197607719750821480850903738357133399177465586310,
  937273392400705904307758947710209471243996273515304457901363076350202973797045527950547586174268086597468240446031568449200951340,
  987992518020485428489565718586612581146972817123761489999997515587388437369019424712722050368319144976675168439900792501939582370]

/-- `case 15` (Util/Gauss_Legendre_Nodes_and_Weights.hpp:622-700), `weights`. -/
def weights15 : List Nat := [
  30753241996117268354628393577204417721748144833434074264228285504237189467117168039038770732399404002516991188859473130193100000,
  70366047488108124709267416450667338466708032754330719825907292914387055512874237044840452066693939219355489858595040538805000000,
  107159220467171935011869546685869303415543715758101980687022389121877994852315799725685857137608624044398087678375055581272000000,
  139570677926154314447804794511028322520850275315511243202391128631088444541907811680768257363571333638149088893276639904111000000,
  166269205816993933553200860481208811130900180098412907321865190563553563212278517710705174292415536214844615406571852227418200000,
  186161000015562211026800561866422824506226012277928402815495727310013255502699160618949768886099323605399777090013844353067270000,
  198431485327111576456118326443839324818692559957541993484737927929124797533434268133314999164817823207660208548893099176479148000,
  202578241925561272880620199967519314838662158009477356796704116051435398754746074093393440712788032135351482670829990177309524630,
  198431485327111576456118326443839324818692559957541993484737927929124797533434268133314999164817823207660208548893099176479148000,
  186161000015562211026800561866422824506226012277928402815495727310013255502699160618949768886099323605399777090013844353067270000,
  166269205816993933553200860481208811130900180098412907321865190563553563212278517710705174292415536214844615406571852227418200000,
  139570677926154314447804794511028322520850275315511243202391128631088444541907811680768257363571333638149088893276639904111000000,
  107159220467171935011869546685869303415543715758101980687022389121877994852315799725685857137608624044398087678375055581272000000,
  70366047488108124709267416450667338466708032754330719825907292914387055512874237044840452066693939219355489858595040538805000000,
  30753241996117268354628393577204417721748144833434074264228285504237189467117168039038770732399404002516991188859473130193100000]

/-- `case 16` (Util/Gauss_Legendre_Nodes_and_Weights.hpp:702-786), `nodes`. -/
def nodes16 : List Int := [
  -989400934991649932596154173450332627426274071657645130051223904731324137215825396938536431906798181013513435859897866508253023710,
  -944575023073232576077988415534608345091139272591072600925553652066609788902682304219565728738158318949328931100907318886410952680,
  -865631202387831743880467897712393132387335384847526708103511425567760397712490558257132494364772354203821428331341464301386002990,
  -755404408355003033895101194847442268353813656457503009781757176922296861031271677720622056919249443421653922625775767897977695180,
  -617876244402643748446671764048791018991882217765657794103797355541733317754811424456911030427958503112200056927562415107693692570,
  -458016777657227386342419442983577573540031613035523490901154750947759174290293607735435527935988093250889048880252410981937838730,
  -281603550779258913230460501460496106486069490770599800548834733955925179499130770441440229152040159284337367075667679943958608230,
  -95012509837637440185319335424958063130353055689065456697219817225125298244592132984758692975783352099655391242316312448307477322,
  95012509837637440185319335424958063130353055689065456697219817225125298244592132984758692975783352099655391242316312448307477322,
  281603550779258913230460501460496106486069490770599800548834733955925179499130770441440229152040159284337367075667679943958608230,
  458016777657227386342419442983577573540031613035523490901154750947759174290293607735435527935988093250889048880252410981937838730,
  617876244402643748446671764048791018991882217765657794103797355541733317754811424456911030427958503112200056927562415107693692570,
  755404408355003033895101194847442268353813656457503009781757176922296861031271677720622056919249443421653922625775767897977695180,
  865631202387831743880467897712393132387335384847526708103511425567760397712490558257132494364772354203821428331341464301386002990,
  944575023073232576077988415534608345091139272591072600925553652066609788902682304219565728738158318949328931100907318886410952680,
  989400934991649932596154173450332627426274071657645130051223904731324137215825396938536431906798181013513435859897866508253023710]

/-- `case 16` (Util/Gauss_Legendre_Nodes_and_Weights.hpp:702-786), `weights`. -/
def weights16 : List Nat := [
  27152459411754094851780572456018103512267375566760797990610319073804113664216173249325779229030880899897425995408606754708000000,
  62253523938647892862843836994377694274986508352906857901303515819535738887043819061211709536851734532667740843701058748410000000,
  95158511682492784809925107602246226355263503183712658156822287229631759577681959447024957320804986489012589149620941483060000000,
  124628971255533872052476282192016420144886859222202679944750590429410963921465353597969190017655684360215049447227692316330000000,
  149595988816576732081501730547478548970491068207836466805421962187360404020417982451778638403059258074066697871098155201744000000,
  169156519395002538189312079030359962211639473416028281745082935680803664209930530932155322542078228047561666302917431130107000000,
  182603415044923588866763667969219939383556223654649282418495144379430464950111174960400425116985275314045024746816472035932341000,
  189450610455068496285396723208283105146908988395902975037513245200022890769133006300133977833533952282533805643209642329708365200,
  189450610455068496285396723208283105146908988395902975037513245200022890769133006300133977833533952282533805643209642329708365200,
  182603415044923588866763667969219939383556223654649282418495144379430464950111174960400425116985275314045024746816472035932341000,
  169156519395002538189312079030359962211639473416028281745082935680803664209930530932155322542078228047561666302917431130107000000,
  149595988816576732081501730547478548970491068207836466805421962187360404020417982451778638403059258074066697871098155201744000000,
  124628971255533872052476282192016420144886859222202679944750590429410963921465353597969190017655684360215049447227692316330000000,
  95158511682492784809925107602246226355263503183712658156822287229631759577681959447024957320804986489012589149620941483060000000,
  62253523938647892862843836994377694274986508352906857901303515819535738887043819061211709536851734532667740843701058748410000000,
  27152459411754094851780572456018103512267375566760797990610319073804113664216173249325779229030880899897425995408606754708000000]

/-- `case 17` (Util/Gauss_Legendre_Nodes_and_Weights.hpp:788-876), `nodes`. -/
def nodes17 : List Int := [
  -990575475314417335675434019940665276507789850459564302783908786742343857470622033711358440649741978435977995595275714793833581780,
  -950675521768767761222716957895803021443385046559108707669969212412115366272198594750036902751468357735265683111473673539734255850,
  -880239153726985902122955694488155692623416817934427900351910159324027130504411211518307193868559189571061418102152607314411726330,
  -781514003896801406925230055520476050223972472740568512513314535512577616159513076173380500866961618653909355652359975581640558770,
  -657671159216690765850302216643002335147805891475973243805231695507324297574697581752991187305510129783375919836507998836939225090,
  -512690537086476967886246568629551874582923722411172905912731498964284924942785480281980412380517601458432505292516519296636013970,
  -351231763453876315297185517095346005040539751575675023319161019547794261646749572897583144603509104881038158847738240791225263870,
  -178484181495847855850677493654065557475419332691525643562951814270697550479300576170288922209635004579580413665869573869461919200,
  0,
  178484181495847855850677493654065557475419332691525643562951814270697550479300576170288922209635004579580413665869573869461919200,
  351231763453876315297185517095346005040539751575675023319161019547794261646749572897583144603509104881038158847738240791225263870,
  512690537086476967886246568629551874582923722411172905912731498964284924942785480281980412380517601458432505292516519296636013970,
  657671159216690765850302216643002335147805891475973243805231695507324297574697581752991187305510129783375919836507998836939225090,
  781514003896801406925230055520476050223972472740568512513314535512577616159513076173380500866961618653909355652359975581640558770,
  880239153726985902122955694488155692623416817934427900351910159324027130504411211518307193868559189571061418102152607314411726330,
  950675521768767761222716957895803021443385046559108707669969212412115366272198594750036902751468357735265683111473673539734255850,
  990575475314417335675434019940665276507789850459564302783908786742343857470622033711358440649741978435977995595275714793833581780]

/-- `case 17` (Util/Gauss_Legendre_Nodes_and_Weights.hpp:788-876), `weights`. -/
def weights17 : List Nat := [
  24148302868547931960110026287565324691697315945025278311185148830218396705510486359585241467544990851947311375604090496348000000,
  55459529373987201129440165358244660512846251953228846993724078710257426003334638373275788744821901102297299483619936822360000000,
  85036148317179180883535370191062073850491389218505475766410360738783992787482647746987604293572999956487342241309297580100000000,
  111883847193403971094788385626355926735843424263077050018486482449095679643609835615221704527766309730393385623448500500910000000,
  135136368468525473286319981702350197372125853234489020377994610688867242989938544097509448313584322928296686702397398062711000000,
  154045761076810288081431594801958611940483058471017934385264711351446741859676451091617449353450908876424153419065240125716000000,
  168004102156450044509970663788323155021198128965074014269955851340323106500024586561203849738919771823620721348699564444445230000,
  176562705366992646325270990113197239150924418000748118043144406913209036207282680452334690684086655930100609211163104345627403000,
  179446470356206525458265644261885621448780319897668523667668697955596754606280259404528445752504277600864981189385735243568298630,
  176562705366992646325270990113197239150924418000748118043144406913209036207282680452334690684086655930100609211163104345627403000,
  168004102156450044509970663788323155021198128965074014269955851340323106500024586561203849738919771823620721348699564444445230000,
  154045761076810288081431594801958611940483058471017934385264711351446741859676451091617449353450908876424153419065240125716000000,
  135136368468525473286319981702350197372125853234489020377994610688867242989938544097509448313584322928296686702397398062711000000,
  111883847193403971094788385626355926735843424263077050018486482449095679643609835615221704527766309730393385623448500500910000000,
  85036148317179180883535370191062073850491389218505475766410360738783992787482647746987604293572999956487342241309297580100000000,
  55459529373987201129440165358244660512846251953228846993724078710257426003334638373275788744821901102297299483619936822360000000,
  24148302868547931960110026287565324691697315945025278311185148830218396705510486359585241467544990851947311375604090496348000000]

/-- `case 18` (Util/Gauss_Legendre_Nodes_and_Weights.hpp:878-972), `nodes`. -/
def nodes18 : List Int := [
  -991565168420930946730016004706150770252578936845439692919675630239857093591779609751763469612601227152373107217977935587388130170,
  -955823949571397755181195892929776309972844134811306478845387629690898071204773223957882392959633924320855948246605688778890604310,
  -892602466497555739206060591127145515407895271352298214187466314907240582436784935830667587080603156394607122351544312623925390090,
  -803704958972523115682417455014590797103298921611922481750428064195388105428944287228286965442411759646715295500068022783654819530,
  -691687043060353207874891081288848389452270572817507758902162656837197368903629251133810808145132630251271543426328214601660222240,
  -559770831073947534607871548525329136927626485770709416639986944062184528206520519659082048360044368606430594998151770073020532670,
  -411751161462842646035931793833051637078989682120025511281148867790389673100425409774346850393651028926184321427325552367959619360,
  -251886225691505509588972854877911230162861765659640458020271031736784493555724221807077542109386247196463142449443265125060054850,
  -84775013041735301242261852935783811733317386906089920043364517625499790653280001637804550727439612443782927567279873122733177487,
  84775013041735301242261852935783811733317386906089920043364517625499790653280001637804550727439612443782927567279873122733177487,
  251886225691505509588972854877911230162861765659640458020271031736784493555724221807077542109386247196463142449443265125060054850,
  411751161462842646035931793833051637078989682120025511281148867790389673100425409774346850393651028926184321427325552367959619360,
  559770831073947534607871548525329136927626485770709416639986944062184528206520519659082048360044368606430594998151770073020532670,
  691687043060353207874891081288848389452270572817507758902162656837197368903629251133810808145132630251271543426328214601660222240,
  803704958972523115682417455014590797103298921611922481750428064195388105428944287228286965442411759646715295500068022783654819530,
  892602466497555739206060591127145515407895271352298214187466314907240582436784935830667587080603156394607122351544312623925390090,
  955823949571397755181195892929776309972844134811306478845387629690898071204773223957882392959633924320855948246605688778890604310,
  991565168420930946730016004706150770252578936845439692919675630239857093591779609751763469612601227152373107217977935587388130170]

/-- `case 18` (Util/Gauss_Legendre_Nodes_and_Weights.hpp:878-972), `weights`. -/
def weights18 : List Nat := [
  21616013526483310313342710266452469387685231475589945462075990141353090237345121903251303069871196703526492411696739205355000000,
  49714548894969796453334946202638641680866246128910202246304307865572343295803416295041370949375536390157810912376107224620000000,
  76425730254889056529129677616636525605317906208358287449521379234410007291792979341765102678396155638675509437737125062470000000,
  100942044106287165562813984924834607062801138887678901610374536655650797380498523352450638711340451123591842370541413294310000000,
  122555206711478460184519126800201555228163897333439097167253513654057439599403681838197219925041014900716770845581016548680000000,
  140642914670650651204731303751947228095502410330972559883456195260465586927749897030662769026913321565560820021727577068554000000,
  154684675126265244925418003836374772193218396267354172666641914727782869230643730312346923852223681061082313863575915131446500000,
  164276483745832722986053776465927590412338953997352953244496970911648421845208007755363757747060489028464811350954504199364473000,
  169142382963143591840656470134986610334105819370343880269875191549059444191554642170920914039778153588223628785809602265199111000,
  169142382963143591840656470134986610334105819370343880269875191549059444191554642170920914039778153588223628785809602265199111000,
  164276483745832722986053776465927590412338953997352953244496970911648421845208007755363757747060489028464811350954504199364473000,
  154684675126265244925418003836374772193218396267354172666641914727782869230643730312346923852223681061082313863575915131446500000,
  140642914670650651204731303751947228095502410330972559883456195260465586927749897030662769026913321565560820021727577068554000000,
  122555206711478460184519126800201555228163897333439097167253513654057439599403681838197219925041014900716770845581016548680000000,
  100942044106287165562813984924834607062801138887678901610374536655650797380498523352450638711340451123591842370541413294310000000,
  76425730254889056529129677616636525605317906208358287449521379234410007291792979341765102678396155638675509437737125062470000000,
  49714548894969796453334946202638641680866246128910202246304307865572343295803416295041370949375536390157810912376107224620000000,
  21616013526483310313342710266452469387685231475589945462075990141353090237345121903251303069871196703526492411696739205355000000]

/-- `case 19` (Util/Gauss_Legendre_Nodes_and_Weights.hpp:974-1072), `nodes`. -/
def nodes19 : List Int := [
  -992406843843584403189017670253260493589316401403210786679679439091231902958522883803674920873418801311979495833823608836414522700,
  -960208152134830030852778840687651526615091503274138105917816334432200749937488513220743561491541317725436819252316474216797883380,
  -903155903614817901642660928532312487809393934057355817695032424761635804590104218957520228369297045630078079901827830031217747520,
  -822714656537142824978922486712713901774538486206830041369863888605500342903685832026866223109260599647022561898459468510993677190,
  -720966177335229378617095860823781629657141832908666774938590471386614559147986052843433382671326574586514636876369589370593542670,
  -600545304661681023469638164946239279868322082732292567586586725668384908696870840424755795331454001435338204209040522183822845650,
  -464570741375960945717267148104102367976285714624136596984308877575684121113425406686449545720731944871091802995971430830893017790,
  -316564099963629831990117328849844917892285219132887245155728986797892885820576397996838892086480351073153508173025043084674042830,
  -160358645640225375868096115740743549504873500470875378874643451606320608680391073656739573499480912931848342018347879647591114150,
  0,
  160358645640225375868096115740743549504873500470875378874643451606320608680391073656739573499480912931848342018347879647591114150,
  316564099963629831990117328849844917892285219132887245155728986797892885820576397996838892086480351073153508173025043084674042830,
  464570741375960945717267148104102367976285714624136596984308877575684121113425406686449545720731944871091802995971430830893017790,
  600545304661681023469638164946239279868322082732292567586586725668384908696870840424755795331454001435338204209040522183822845650,
  720966177335229378617095860823781629657141832908666774938590471386614559147986052843433382671326574586514636876369589370593542670,
  822714656537142824978922486712713901774538486206830041369863888605500342903685832026866223109260599647022561898459468510993677190,
  903155903614817901642660928532312487809393934057355817695032424761635804590104218957520228369297045630078079901827830031217747520,
  960208152134830030852778840687651526615091503274138105917816334432200749937488513220743561491541317725436819252316474216797883380,
  992406843843584403189017670253260493589316401403210786679679439091231902958522883803674920873418801311979495833823608836414522700]

/-- `case 19` (Util/Gauss_Legendre_Nodes_and_Weights.hpp:974-1072), `weights`. -/
def weights19 : List Nat := [
  19461788229726477036312041464438435752906609069286640792680472461601437568105548210852088045267491703474519294753293711420000000,
  44814226765699600332838157401994211951754227467857602085854526767642991384279457644669035710255993420328032377586036034300000000,
  69044542737641226580708258006013044961848031687613131122900427696034974906439021517663095463334972637464287665389954252500000000,
  91490021622449999464462094123839652660911651296598784664989344902062221043797261605747715041888956274314663499304298180890000000,
  111566645547333994716023901681765997481331853839893775521461142876458976105646470601004284952592305405626155444210531474580000000,
  128753962539336227675515784856877117055839577093463034547104384622303604056631679931433002334152073215891645750356298056377000000,
  142606702173606611775746109441902972475668344824473860926571655906458248472903251014940071837250136908630601440658038331519600000,
  152766042065859666778855400897662998461008267236428623523101553074811043651063213654809847030787068402281257643851429418284270000,
  158968843393954347649956439465047201678780158195126095751174915324740978583385059742610476726006478565672695740730870929468194000,
  161054449848783695979163625320916735039902558578516902128323152735771048455498072152540765716929046932632282286318499221374317890,
  158968843393954347649956439465047201678780158195126095751174915324740978583385059742610476726006478565672695740730870929468194000,
  152766042065859666778855400897662998461008267236428623523101553074811043651063213654809847030787068402281257643851429418284270000,
  142606702173606611775746109441902972475668344824473860926571655906458248472903251014940071837250136908630601440658038331519600000,
  128753962539336227675515784856877117055839577093463034547104384622303604056631679931433002334152073215891645750356298056377000000,
  111566645547333994716023901681765997481331853839893775521461142876458976105646470601004284952592305405626155444210531474580000000,
  91490021622449999464462094123839652660911651296598784664989344902062221043797261605747715041888956274314663499304298180890000000,
  69044542737641226580708258006013044961848031687613131122900427696034974906439021517663095463334972637464287665389954252500000000,
  44814226765699600332838157401994211951754227467857602085854526767642991384279457644669035710255993420328032377586036034300000000,
  19461788229726477036312041464438435752906609069286640792680472461601437568105548210852088045267491703474519294753293711420000000]

/-- `case 20` (Util/Gauss_Legendre_Nodes_and_Weights.hpp:1074-1178), `nodes`. -/
def nodes20 : List Int := [
  -993128599185094924786122388471320278222647130901655896148184131217984717627753780839449402496572209274728940347244190138014860390,
  -963971927277913791267666131197277221912060327806188856063537593892041580784383056980018125255964715631310434915964230528860410790,
  -912234428251325905867752441203298113049184797423691774795882219158070891208719078936444726192921387378760391754646026411736863380,
  -839116971822218823394529061701520685329629365065637373252492725532861093999324809919229340565957649220604220353069140945574426770,
  -746331906460150792614305070355641590310730679569176444139545906068535355038155064681104113620647520612384900651676561496311430970,
  -636053680726515025452836696226285936743389116799368463939446622546541262585430132558703195495761306582117109377725957362041081030,
  -510867001950827098004364050955250998425491329202426833472348619894734970390765728144031683050867779198329430688435262356565254020,
  -373706088715419560672548177024927237395746321705682711827948613515645764373059527895895683634533378944767722088528150153059350110,
  -227785851141645078080496195368574624743088937682927472314635739207171341863555827794952125190968708031773731315604302174299040880,
  -76526521133497333754640409398838211004796266813497500804795244384256342048336978241545114181556215606998505646364132704440537825,
  76526521133497333754640409398838211004796266813497500804795244384256342048336978241545114181556215606998505646364132704440537825,
  227785851141645078080496195368574624743088937682927472314635739207171341863555827794952125190968708031773731315604302174299040880,
  373706088715419560672548177024927237395746321705682711827948613515645764373059527895895683634533378944767722088528150153059350110,
  510867001950827098004364050955250998425491329202426833472348619894734970390765728144031683050867779198329430688435262356565254020,
  636053680726515025452836696226285936743389116799368463939446622546541262585430132558703195495761306582117109377725957362041081030,
  746331906460150792614305070355641590310730679569176444139545906068535355038155064681104113620647520612384900651676561496311430970,
  839116971822218823394529061701520685329629365065637373252492725532861093999324809919229340565957649220604220353069140945574426770,
  912234428251325905867752441203298113049184797423691774795882219158070891208719078936444726192921387378760391754646026411736863380,
  963971927277913791267666131197277221912060327806188856063537593892041580784383056980018125255964715631310434915964230528860410790,
  993128599185094924786122388471320278222647130901655896148184131217984717627753780839449402496572209274728940347244190138014860390]

/-- `case 20` (Util/Gauss_Legendre_Nodes_and_Weights.hpp:1074-1178), `weights`. -/
def weights20 : List Nat := [
  17614007139152118311861962351852816362143105543336732524349326677348419259621847817403105542146097668703716227512570008210000000,
  40601429800386941331039952274932109879090639989951536817606854561832296750987328295538920623044384976189825709675075022600000000,
  62672048334109063569506535187041606351601076578436364099584345437974811033665678644563766056832203512603253399592073261800000000,
  83276741576704748724758143222046206100177828583163290744882060785693082894079419471375190843790839349096116111932763770600000000,
  101930119817240435036750135480349876166691656023392556261971616196852322025394346475349315769479858213758590355254832659320000000,
  118194531961518417312377377711382287005041219548968775446889952020174748350511516305728687825819017446062675430923165913390000000,
  131688638449176626898494499748163134916110511146983526996436493708854356429480933143557975183972629245105980054636247016400000000,
  142096109318382051329298325067164933034515413392020303337367082983828087497934367616949224283200582601330685736662014018940200000,
  149172986472603746787828737001969436692679904081368316496211217809844422595586780693961326035210481051709138545673380068657568000,
  152753387130725850698084331955097593491948645112378597274701049817597453162737781535572487836503905935440018428137878260115028000,
  152753387130725850698084331955097593491948645112378597274701049817597453162737781535572487836503905935440018428137878260115028000,
  149172986472603746787828737001969436692679904081368316496211217809844422595586780693961326035210481051709138545673380068657568000,
  142096109318382051329298325067164933034515413392020303337367082983828087497934367616949224283200582601330685736662014018940200000,
  131688638449176626898494499748163134916110511146983526996436493708854356429480933143557975183972629245105980054636247016400000000,
  118194531961518417312377377711382287005041219548968775446889952020174748350511516305728687825819017446062675430923165913390000000,
  101930119817240435036750135480349876166691656023392556261971616196852322025394346475349315769479858213758590355254832659320000000,
  83276741576704748724758143222046206100177828583163290744882060785693082894079419471375190843790839349096116111932763770600000000,
  62672048334109063569506535187041606351601076578436364099584345437974811033665678644563766056832203512603253399592073261800000000,
  40601429800386941331039952274932109879090639989951536817606854561832296750987328295538920623044384976189825709675075022600000000,
  17614007139152118311861962351852816362143105543336732524349326677348419259621847817403105542146097668703716227512570008210000000]

/-- `case 21` (Util/Gauss_Legendre_Nodes_and_Weights.hpp:1180-1288), `nodes`. -/
def nodes21 : List Int := [
  -993752170620389500260242035937940929193338454782329185580873854713096109022992806998128747135239077728837705337024145014399336390,
  -967226838566306294316622214907695161424693687329846849952971128085120960005080287971837401863924052764629398374960907073058803140,
  -920099334150400828790187133714968894159147609648221697176135487090981563069407828991731951372068269434200035492769902063252150780,
  -853363364583317283647250638587567670276105803179343970742991629394242906283835146972289637191696114496702335811831008545899296550,
  -768439963475677908615877851306228034820976705771369550868726665030018742539701179587071659093864387143939093120876814457832489970,
  -667138804197412319305966669990339162597029343311402842475467082347194193115696295299510488562791259986150901489919420307523048140,
  -551618835887219807059018796724313286622060224230679665004305839499604781711684037056980987899030959218004861818608512798653958180,
  -424342120207438783573668888543788052096445231839634584224258235896486883678801556999872092913827637630956631305098943913797924860,
  -288021316802401096600792516064600319909018263646033228754281524749244942941842767853339028360216826572323879161733636350902003270,
  -145561854160895090937030982338686330116326024437937757421488389985547280883319797690515978438208452995626608299795246000707504090,
  0,
  145561854160895090937030982338686330116326024437937757421488389985547280883319797690515978438208452995626608299795246000707504090,
  288021316802401096600792516064600319909018263646033228754281524749244942941842767853339028360216826572323879161733636350902003270,
  424342120207438783573668888543788052096445231839634584224258235896486883678801556999872092913827637630956631305098943913797924860,
  551618835887219807059018796724313286622060224230679665004305839499604781711684037056980987899030959218004861818608512798653958180,
  667138804197412319305966669990339162597029343311402842475467082347194193115696295299510488562791259986150901489919420307523048140,
  768439963475677908615877851306228034820976705771369550868726665030018742539701179587071659093864387143939093120876814457832489970,
  853363364583317283647250638587567670276105803179343970742991629394242906283835146972289637191696114496702335811831008545899296550,
  920099334150400828790187133714968894159147609648221697176135487090981563069407828991731951372068269434200035492769902063252150780,
  967226838566306294316622214907695161424693687329846849952971128085120960005080287971837401863924052764629398374960907073058803140,
  993752170620389500260242035937940929193338454782329185580873854713096109022992806998128747135239077728837705337024145014399336390]

/-- `case 21` (Util/Gauss_Legendre_Nodes_and_Weights.hpp:1180-1288), `weights`. -/
def weights21 : List Nat := [
  16017228257774333324224616858471015265890422117902482548177910113558767361318862314906706095145675480360083449518503266080000000,
  36953789770852493799950668299329666188944308148729837427169181878785751157567408458523442876960329858352979839844448969900000000,
  57134425426857208283635826472447957491287596826256041442507323427049055399652008088286448567021646480091239958779562164000000000,
  76100113628379302017051653300183179226154352423966028521468485816453516586600749993136618812647532270150391233314310571000000000,
  93444423456033861553289741113932088483526647361592844866695271632577897773712387351868588566790756716297779979952375553000000000,
  108797299167148377663474578070105642033699595793856330552782087168973643766269388381176762430791971428043133669492949183340000000,
  121831416053728534195367177125733598356337625561537450242983807842758901229350963941948454005108054415351069929908034651118000000,
  132268938633337461781052574496775604329011540143156823218350323151782598565230399023690595615288782325743726007028420932982600000,
  139887394791073154722133423867583110892793160954919604373731326324243262465206156616321621602160099859990005560227105554135710000,
  144524403989970059063827166553752543609949962197099834752472988886097309343391869865269665864852023305015380718275105834047860800,
  146081133649690427191985147683371188244809576941965444107322587515438592703399611929742191126466255721208419307318366640702329150,
  144524403989970059063827166553752543609949962197099834752472988886097309343391869865269665864852023305015380718275105834047860800,
  139887394791073154722133423867583110892793160954919604373731326324243262465206156616321621602160099859990005560227105554135710000,
  132268938633337461781052574496775604329011540143156823218350323151782598565230399023690595615288782325743726007028420932982600000,
  121831416053728534195367177125733598356337625561537450242983807842758901229350963941948454005108054415351069929908034651118000000,
  108797299167148377663474578070105642033699595793856330552782087168973643766269388381176762430791971428043133669492949183340000000,
  93444423456033861553289741113932088483526647361592844866695271632577897773712387351868588566790756716297779979952375553000000000,
  76100113628379302017051653300183179226154352423966028521468485816453516586600749993136618812647532270150391233314310571000000000,
  57134425426857208283635826472447957491287596826256041442507323427049055399652008088286448567021646480091239958779562164000000000,
  36953789770852493799950668299329666188944308148729837427169181878785751157567408458523442876960329858352979839844448969900000000,
  16017228257774333324224616858471015265890422117902482548177910113558767361318862314906706095145675480360083449518503266080000000]

/-- `case 22` (Util/Gauss_Legendre_Nodes_and_Weights.hpp:1290-1404), `nodes`. -/
def nodes22 : List Int := [
  -994294585482399292073031421161298980393054198396031534977022924966656497704079911820771925776271604270961314132597920415935922240,
  -970060497835428727123950986765268710805968923137802969559738212336374260774842508637541354627034285352279221628282085920821738940,
  -926956772187174000520692939259053196635329653372051982044573191527136119111541125503693752847453358211124174610190275154147572480,
  -865812577720300136536425637019378729084796755588446156127093369262716894941520434808480156283857245247938203617309014308190803010,
  -787816805979208162004277955408351521388178671331563158121693397711132276252708074900051518959333385255463540909371760348987343440,
  -694487263186682780050689835762256771267342289977435161121733775392285939774293054839594114798610353089326958028255379141512737740,
  -587640403506911592958876927638647348877615603573717839770033821372468377828044360359160105211276602629964799692816207681859293500,
  -469355837986757026406330710966406346095343791130736547796100029693577014685636613874397148822510149229185011452577746487779207950,
  -341935820892084225158147420427379619559173299170687343996862383689013438907146962656558397367043296916214790950302521180902990020,
  -207860426688221285478846533919545734215675109097933649668653304368200841314717664216598824125699213974714842916439613730103205310,
  -69739273319722221213841796118628081822296299480231474706681946511609373632639446076518394370433854448787287929705958818003332728,
  69739273319722221213841796118628081822296299480231474706681946511609373632639446076518394370433854448787287929705958818003332728,
  207860426688221285478846533919545734215675109097933649668653304368200841314717664216598824125699213974714842916439613730103205310,
  341935820892084225158147420427379619559173299170687343996862383689013438907146962656558397367043296916214790950302521180902990020,
  469355837986757026406330710966406346095343791130736547796100029693577014685636613874397148822510149229185011452577746487779207950,
  587640403506911592958876927638647348877615603573717839770033821372468377828044360359160105211276602629964799692816207681859293500,
  694487263186682780050689835762256771267342289977435161121733775392285939774293054839594114798610353089326958028255379141512737740,
  787816805979208162004277955408351521388178671331563158121693397711132276252708074900051518959333385255463540909371760348987343440,
  865812577720300136536425637019378729084796755588446156127093369262716894941520434808480156283857245247938203617309014308190803010,
  926956772187174000520692939259053196635329653372051982044573191527136119111541125503693752847453358211124174610190275154147572480,
  970060497835428727123950986765268710805968923137802969559738212336374260774842508637541354627034285352279221628282085920821738940,
  994294585482399292073031421161298980393054198396031534977022924966656497704079911820771925776271604270961314132597920415935922240]

/-- `case 22` (Util/Gauss_Legendre_Nodes_and_Weights.hpp:1290-1404), `weights`. -/
def weights22 : List Nat := [
  14627995298272200684991098047185445190211949124323730924497591420188106532748171142283774107518329174514664531362307847700000000,
  33774901584814154793302246865912901349169314474474660432883194559951511753061488398914948822327182039466864231420991419700000000,
  52293335152683285940312051273211256112150093569236316122710083297676342359932824781968190049794237985394476963905080749000000000,
  69796468424520488094961418930217657398775052955080527386311371763946403487285894039392840793448748457834769154822786981000000000,
  85941606217067727414443681372702866189144405349079783286570011048246024773126157432022249814719527942003116671488630555500000000,
  100414144442880964932078837830536282350811088767699625784960914340453096074223772742860639163359557377634909354066174031500000000,
  112932296080539218393400607421784319114263332120994704272597546248613130923610833659604881424968867261678154905105382555270000000,
  123252376810512424285560986154814471959444999004967972428421971885135502799175454031780246034426342806217953824887419134459000000,
  131173504787062370732964992530307445875741894188030653125379703424544610313528974091434100033080259035745313343037467151635600000,
  136541498346015171352573831231517396586367652988686168109469734938207558164537833380990632932298033806416609861941038468308084000,
  139251872855631993375410248341809957873920217457425858126197877073037712818768596298747496824058914113093167157962721105490063000,
  139251872855631993375410248341809957873920217457425858126197877073037712818768596298747496824058914113093167157962721105490063000,
  136541498346015171352573831231517396586367652988686168109469734938207558164537833380990632932298033806416609861941038468308084000,
  131173504787062370732964992530307445875741894188030653125379703424544610313528974091434100033080259035745313343037467151635600000,
  123252376810512424285560986154814471959444999004967972428421971885135502799175454031780246034426342806217953824887419134459000000,
  112932296080539218393400607421784319114263332120994704272597546248613130923610833659604881424968867261678154905105382555270000000,
  100414144442880964932078837830536282350811088767699625784960914340453096074223772742860639163359557377634909354066174031500000000,
  85941606217067727414443681372702866189144405349079783286570011048246024773126157432022249814719527942003116671488630555500000000,
  69796468424520488094961418930217657398775052955080527386311371763946403487285894039392840793448748457834769154822786981000000000,
  52293335152683285940312051273211256112150093569236316122710083297676342359932824781968190049794237985394476963905080749000000000,
  33774901584814154793302246865912901349169314474474660432883194559951511753061488398914948822327182039466864231420991419700000000,
  14627995298272200684991098047185445190211949124323730924497591420188106532748171142283774107518329174514664531362307847700000000]

/-- `case 23` (Util/Gauss_Legendre_Nodes_and_Weights.hpp:1406-1524), `nodes`. -/
def nodes23 : List Int := [
  -994769334997552123523925715445574360573627372458870420926793884167074079765785270183989144216380134015528100132086012761027862160,
  -972542471218115231956024076820777375181613795353973942491256158735797037174576417867417465743929514661328367610354307928666299280,
  -932971086826016102349196989038422978235701820151390770692901254601977828800087079913010071826295505395358390347648686841764551760,
  -876752358270441667378156885934145671638929029960650634909401115760551638709515943198565495121697083258303440797445952818857209890,
  -804888401618839892151118406996778557941430139730308022585432435671706760169049359215090003381924165816274816464404000059785452620,
  -718661363131950194461624483748618848329929745131292795754781288214051128675925747510287255921947519920747909020835212001250655030,
  -619609875763646156385097311649595653387180658807092295700865585609119806496446836540444505764941770540058930648815835318011576050,
  -509501477846007549689793047866846430544842769184857623227189380821275005104766531506751987728021743597476345938918855938186360550,
  -390301038030290831421488872880605458578050850692503481219205263316712616187032429178647526370487406245677379754326751006878130640,
  -264135680970344930533869538283309602979013250194139604869078877052328853582672024578158528710933773558662765752055922754539494990,
  -133256824298466110931742682241766137010405276253382156510945377187047889875654477574563263596351401150478024810006155214780400790,
  0,
  133256824298466110931742682241766137010405276253382156510945377187047889875654477574563263596351401150478024810006155214780400790,
  264135680970344930533869538283309602979013250194139604869078877052328853582672024578158528710933773558662765752055922754539494990,
  390301038030290831421488872880605458578050850692503481219205263316712616187032429178647526370487406245677379754326751006878130640,
  509501477846007549689793047866846430544842769184857623227189380821275005104766531506751987728021743597476345938918855938186360550,
  619609875763646156385097311649595653387180658807092295700865585609119806496446836540444505764941770540058930648815835318011576050,
  718661363131950194461624483748618848329929745131292795754781288214051128675925747510287255921947519920747909020835212001250655030,
  804888401618839892151118406996778557941430139730308022585432435671706760169049359215090003381924165816274816464404000059785452620,
  876752358270441667378156885934145671638929029960650634909401115760551638709515943198565495121697083258303440797445952818857209890,
  932971086826016102349196989038422978235701820151390770692901254601977828800087079913010071826295505395358390347648686841764551760,
  972542471218115231956024076820777375181613795353973942491256158735797037174576417867417465743929514661328367610354307928666299280,
  994769334997552123523925715445574360573627372458870420926793884167074079765785270183989144216380134015528100132086012761027862160]

/-- `case 23` (Util/Gauss_Legendre_Nodes_and_Weights.hpp:1406-1524), `weights`. -/
def weights23 : List Nat := [
  13411859487141772081309493458615064976618334105737233392395882139160886736052059849299035458524064610868911272740445496600000000,
  30988005856979444310694219641884505383772528999928066434887806598617784262867592002249716659970896696862629192179149768000000000,
  48037671731084668571641071632033996561216308303511611333683666869858086874818629155330941779883463907163176293266156156000000000,
  64232421408525852127169615158910998039158275754806830495346682052917553580781283406392174145213317261104081939209166290000000000,
  79281411776718954922892524742043226913711991938406502555634540332043004013758882535953573288415640060716873237335939166000000000,
  92915766060035147477018617369764648603460071743129893732659504611937284935588160799475641208947255578943193817169142823600000000,
  104892091464541410074086185014743854858471583193975005502825192338779376342050889899856437964245621294958671493497496664030000000,
  114996640222411364941643512933961301491410522929585606609075703402799594483745407238130671274950561760589110226326053716825000000,
  123049084306729530467578400672009654815852812546470574435670332901690467707785205510106027117902130949111572552587141763461400000,
  128905722188082149978595339399793653259715497191783492444340431717989464756011035750046059891917736900811397214611839638901020000,
  132462039404696617371642464703316925805035669474223524322512268038486005882679405673580117707940778115860103985328801735954954500,
  133654572186106175351457110545844338583152807636883317481935977991440980847722896359159207004177065726020557551497333561625571470,
  132462039404696617371642464703316925805035669474223524322512268038486005882679405673580117707940778115860103985328801735954954500,
  128905722188082149978595339399793653259715497191783492444340431717989464756011035750046059891917736900811397214611839638901020000,
  123049084306729530467578400672009654815852812546470574435670332901690467707785205510106027117902130949111572552587141763461400000,
  114996640222411364941643512933961301491410522929585606609075703402799594483745407238130671274950561760589110226326053716825000000,
  104892091464541410074086185014743854858471583193975005502825192338779376342050889899856437964245621294958671493497496664030000000,
  92915766060035147477018617369764648603460071743129893732659504611937284935588160799475641208947255578943193817169142823600000000,
  79281411776718954922892524742043226913711991938406502555634540332043004013758882535953573288415640060716873237335939166000000000,
  64232421408525852127169615158910998039158275754806830495346682052917553580781283406392174145213317261104081939209166290000000000,
  48037671731084668571641071632033996561216308303511611333683666869858086874818629155330941779883463907163176293266156156000000000,
  30988005856979444310694219641884505383772528999928066434887806598617784262867592002249716659970896696862629192179149768000000000,
  13411859487141772081309493458615064976618334105737233392395882139160886736052059849299035458524064610868911272740445496600000000]

/-- `case 24` (Util/Gauss_Legendre_Nodes_and_Weights.hpp:1526-1650), `nodes`. -/
def nodes24 : List Int := [
  -995187219997021360179997409700736811874597692596002877441600545114283832069457737883397289337115708862345346297896585399449723770,
  -974728555971309498198391993008169061741183053040178719811593565107181121280980224538637474281715454982741258575571349114479818030,
  -938274552002732758523649001708721449654819658077451346635027175909589496052535670959964641535869955509426705762351592989599744950,
  -886415527004401034213154341982196755087333043308920040371037916775674834398959172104123501996181701253529510891007502417588566490,
  -820001985973902921953949872669745208076126477667855587243981026001382978953554540082260521172583796066642476585830915236997595670,
  -740124191578554364243828103099978425523292487014185456866382368271900338640922932441331356131128794329852627074539828821361746200,
  -648093651936975569252495786910747626669658298618956780298933665024448317568539771928117770365727243399051995441474400345334779410,
  -545421471388839535658375617218372370010783992587618175433614389830564839179570897095834867440806250197774665331367677894881029740,
  -433793507626045138487084231913349712452421510927968808080801284656764407033630914057735430466075616883617063341500262975507638200,
  -315042679696163374386793291319810240786478260824817268754230129529882156341243408343873509555208210607225161736403064353665893180,
  -191118867473616309158639820757069631840405103314753356148918576588085952691871741982491111245209730713593414601359546139272154290,
  -64056892862605626085043082624745038590999195420747393424351081789739283593910107802892876134252509082324227383511575699486911250,
  64056892862605626085043082624745038590999195420747393424351081789739283593910107802892876134252509082324227383511575699486911250,
  191118867473616309158639820757069631840405103314753356148918576588085952691871741982491111245209730713593414601359546139272154290,
  315042679696163374386793291319810240786478260824817268754230129529882156341243408343873509555208210607225161736403064353665893180,
  433793507626045138487084231913349712452421510927968808080801284656764407033630914057735430466075616883617063341500262975507638200,
  545421471388839535658375617218372370010783992587618175433614389830564839179570897095834867440806250197774665331367677894881029740,
  648093651936975569252495786910747626669658298618956780298933665024448317568539771928117770365727243399051995441474400345334779410,
  740124191578554364243828103099978425523292487014185456866382368271900338640922932441331356131128794329852627074539828821361746200,
  820001985973902921953949872669745208076126477667855587243981026001382978953554540082260521172583796066642476585830915236997595670,
  886415527004401034213154341982196755087333043308920040371037916775674834398959172104123501996181701253529510891007502417588566490,
  938274552002732758523649001708721449654819658077451346635027175909589496052535670959964641535869955509426705762351592989599744950,
  974728555971309498198391993008169061741183053040178719811593565107181121280980224538637474281715454982741258575571349114479818030,
  995187219997021360179997409700736811874597692596002877441600545114283832069457737883397289337115708862345346297896585399449723770]

/-- `case 24` (Util/Gauss_Legendre_Nodes_and_Weights.hpp:1526-1650), `weights`. -/
def weights24 : List Nat := [
  12341229799987199546805667070037291575910040891366516817287320941091725517881113791798718671920424511839166850717975202200000000,
  28531388628933663181307815951878286449197797931908116601664804757644005637429143425685425422809875542273722445271163343000000000,
  44277438817419806168602748211338228859312841833857896741397229721024376282266439634394717015559493493461180304606653035000000000,
  59298584915436780746367758500108584541200126565213491037376551294098303177508241566068355610609009299865473395249264247000000000,
  73346481411080305734033615253116518119336509848499471402702490660041388475870934832325142269444555195884430907934115893000000000,
  86190161531953275917185202983742667185080588237933005588407143861286884460780531268888656297281697173278746567198432799200000000,
  97618652104113888269880664464247154427918968853685944083310610022954338577591978348020039690718187482414745713364268645700000000,
  107444270115965634782577342446606222794628690134220021766541640886821866394437105980586727120915236672945076498454815476820000000,
  115505668053725601353344483906783559862270311376496470584449360088670253551318549940344257646812795659959909604702327440655000000,
  121670472927803391204463153476262425607029559203805778777471754512625393717716961917757803430772841912957145840769868545511000000,
  125837456346828296121375382511183688726403325581345404178091516881393872666662596882038179256421140724412534011228361937164002000,
  127938195346752156974056165224695371851711239541667882421299576372347591540536402412091977566734742330707867860502753435433636550,
  127938195346752156974056165224695371851711239541667882421299576372347591540536402412091977566734742330707867860502753435433636550,
  125837456346828296121375382511183688726403325581345404178091516881393872666662596882038179256421140724412534011228361937164002000,
  121670472927803391204463153476262425607029559203805778777471754512625393717716961917757803430772841912957145840769868545511000000,
  115505668053725601353344483906783559862270311376496470584449360088670253551318549940344257646812795659959909604702327440655000000,
  107444270115965634782577342446606222794628690134220021766541640886821866394437105980586727120915236672945076498454815476820000000,
  97618652104113888269880664464247154427918968853685944083310610022954338577591978348020039690718187482414745713364268645700000000,
  86190161531953275917185202983742667185080588237933005588407143861286884460780531268888656297281697173278746567198432799200000000,
  73346481411080305734033615253116518119336509848499471402702490660041388475870934832325142269444555195884430907934115893000000000,
  59298584915436780746367758500108584541200126565213491037376551294098303177508241566068355610609009299865473395249264247000000000,
  44277438817419806168602748211338228859312841833857896741397229721024376282266439634394717015559493493461180304606653035000000000,
  28531388628933663181307815951878286449197797931908116601664804757644005637429143425685425422809875542273722445271163343000000000,
  12341229799987199546805667070037291575910040891366516817287320941091725517881113791798718671920424511839166850717975202200000000]

/-- `case 25` (Util/Gauss_Legendre_Nodes_and_Weights.hpp:1652-1780), `nodes`. -/
def nodes25 : List Int := [
  -995556969790498097908784946893901617257562649404808171210804931132933481343727934487288026352947007568682588704292555159822874490,
  -976663921459517511498315386479594067745370555314406744670987427316163867535880553896446709483006178668198659830546481746356574790,
  -942974571228974339414011169658470531905201570608990141927452497137295322544049261308905218151273483271096667866655721592537437230,
  -894991997878275368851042006782804954174554849753583903061701682959171510901199451371186006930391781620937268826382957244386684880,
  -833442628760834001421021108693569569460964113823520786020864715461718132477090125253229739477591681071334910659373474894381604350,
  -759259263037357630577282865204360976387522018898334120918389735445018628820262407607636797241852303314639195862290729975748493470,
  -673566368473468364485120633247622175883416728072749317059656961778287736849284211581963685680309321940442821493143881307105880790,
  -577662930241222967723689841612654067395735039291518256645483507761023012752632022276716596465796490840131160661205814233630075310,
  -473002731445714960522182115009192041331817738461627290907230827695603275841286030103156847782793635441927870107044980851947871910,
  -361172305809387837735821730127640667422078347043375069794578777846745382395696548603295315060937614007892946121228118808892510540,
  -243866883720988432045190362797451586405633156325984476421135653250387472785855950679776367763250340603275484997657416114990986040,
  -122864692610710396387359818808036805532205346049783738423893537892708834968858415826438849946331055375977659804123198074957982990,
  0,
  122864692610710396387359818808036805532205346049783738423893537892708834968858415826438849946331055375977659804123198074957982990,
  243866883720988432045190362797451586405633156325984476421135653250387472785855950679776367763250340603275484997657416114990986040,
  361172305809387837735821730127640667422078347043375069794578777846745382395696548603295315060937614007892946121228118808892510540,
  473002731445714960522182115009192041331817738461627290907230827695603275841286030103156847782793635441927870107044980851947871910,
  577662930241222967723689841612654067395735039291518256645483507761023012752632022276716596465796490840131160661205814233630075310,
  673566368473468364485120633247622175883416728072749317059656961778287736849284211581963685680309321940442821493143881307105880790,
  759259263037357630577282865204360976387522018898334120918389735445018628820262407607636797241852303314639195862290729975748493470,
  833442628760834001421021108693569569460964113823520786020864715461718132477090125253229739477591681071334910659373474894381604350,
  894991997878275368851042006782804954174554849753583903061701682959171510901199451371186006930391781620937268826382957244386684880,
  942974571228974339414011169658470531905201570608990141927452497137295322544049261308905218151273483271096667866655721592537437230,
  976663921459517511498315386479594067745370555314406744670987427316163867535880553896446709483006178668198659830546481746356574790,
  995556969790498097908784946893901617257562649404808171210804931132933481343727934487288026352947007568682588704292555159822874490]

/-- `case 25` (Util/Gauss_Legendre_Nodes_and_Weights.hpp:1652-1780), `weights`. -/
def weights25 : List Nat := [
  11393798501026287947902964113234773603320526292909696448948061116189891729766743355923677112945033505688431618009663744000000000,
  26354986615032137261901815295299144935963281703322468755366165783870934008879499371529821528172928890350362464605103970000000000,
  40939156701306312655623487711645953660845783364104346504698414899297432880215512770478971055110424130123527015425511500000000000,
  54904695975835191925936891540473324160109985553111349048508498244593774678436511895711924079433444763756746828817612630000000000,
  68038333812356917207187185656707968554709494354636562615071226410003654051711473106651522969481873733098761760660898221000000000,
  80140700335001018013234959669111302290225732853675893716201462973612828934801289559457377714225318048243957479325812966000000000,
  91028261982963649811497220702891653380992558959334310970483768967017384678410526902484398142953718885872521590850371736000000000,
  100535949067050644202206890392685826988466094528141907069869041999412948159046029681955656203732582117552266812066577786220000000,
  108519624474263653116093957050116619340077587986722016156494307348839292793608442693397683500296541721358327734275650374046000000,
  114858259145711648339325545869555808640936191668180149591514990031482796671125422565344298985581562732505136523517435972589700000,
  119455763535784772228178126512901047390176701413726425519587881335184090220187735024428697209752713213743485684262347028248150000,
  122242442990310041688959518945851505835059247563059040907580082232038967219180102430335408910789066371156201568453042767890191100,
  123176053726715451203902873079050142438233627518151665391352197316912007949261421284601125175049583773100545839459942610394126670,
  122242442990310041688959518945851505835059247563059040907580082232038967219180102430335408910789066371156201568453042767890191100,
  119455763535784772228178126512901047390176701413726425519587881335184090220187735024428697209752713213743485684262347028248150000,
  114858259145711648339325545869555808640936191668180149591514990031482796671125422565344298985581562732505136523517435972589700000,
  108519624474263653116093957050116619340077587986722016156494307348839292793608442693397683500296541721358327734275650374046000000,
  100535949067050644202206890392685826988466094528141907069869041999412948159046029681955656203732582117552266812066577786220000000,
  91028261982963649811497220702891653380992558959334310970483768967017384678410526902484398142953718885872521590850371736000000000,
  80140700335001018013234959669111302290225732853675893716201462973612828934801289559457377714225318048243957479325812966000000000,
  68038333812356917207187185656707968554709494354636562615071226410003654051711473106651522969481873733098761760660898221000000000,
  54904695975835191925936891540473324160109985553111349048508498244593774678436511895711924079433444763756746828817612630000000000,
  40939156701306312655623487711645953660845783364104346504698414899297432880215512770478971055110424130123527015425511500000000000,
  26354986615032137261901815295299144935963281703322468755366165783870934008879499371529821528172928890350362464605103970000000000,
  11393798501026287947902964113234773603320526292909696448948061116189891729766743355923677112945033505688431618009663744000000000]

/-- `case 26` (Util/Gauss_Legendre_Nodes_and_Weights.hpp:1782-1916), `nodes`. -/
def nodes26 : List Int := [
  -995885701145616929003216959322906025956857855119559667396527809405566296633277806451906588056837361949743386038958053626410092630,
  -978385445956470991100580354311926305446916563747318502485414861316505150745012471338934421241119597487299656422120553915250168140,
  -947159066661714250135915283518036754520710337684315270018267779609857644452460807770706197751409076080454705407564853655120531830,
  -902637861984307074217665599231210251341124005372905372555165654779465799102545986857660830250137463316186255654868455012176887790,
  -845445942788498018797507061467838161572075102091329569430176472911616914671236294950147562179389057300508798809439944824584243760,
  -776385948820678856192967247242283866976218256255194872163168421627032928640826645969421127655988032194733123683014677707512137830,
  -696427260419957264863813913729424697860753317790819151704557453838360546995838028795913844887326556011118366482590441590430109690,
  -606692293017618063231978746916887054435264572265909890378643312519928126890253200465832808610010707499405120750554870955410795140,
  -508440714824505717695703064725569175376306754185750813721100469603927394929356690234022542274750818052356033835556092019824253840,
  -403051755123486306481077377098883103659937409699316182589141133548184217047370653049757951194407321733214583362604811520259416690,
  -292004839485956895142835382077830296884719386962990378212344191903701624578007907582395704692773147518651657533367501615645265560,
  -176858820356890183969057748418344749977383763801264261480347699784045280055416087117615088263594101316736570820274495999869455000,
  -59230093429313207093718575198403360790234735389035582154272291684387036119973420338410626885787767819855089783997760594089321131,
  59230093429313207093718575198403360790234735389035582154272291684387036119973420338410626885787767819855089783997760594089321131,
  176858820356890183969057748418344749977383763801264261480347699784045280055416087117615088263594101316736570820274495999869455000,
  292004839485956895142835382077830296884719386962990378212344191903701624578007907582395704692773147518651657533367501615645265560,
  403051755123486306481077377098883103659937409699316182589141133548184217047370653049757951194407321733214583362604811520259416690,
  508440714824505717695703064725569175376306754185750813721100469603927394929356690234022542274750818052356033835556092019824253840,
  606692293017618063231978746916887054435264572265909890378643312519928126890253200465832808610010707499405120750554870955410795140,
  696427260419957264863813913729424697860753317790819151704557453838360546995838028795913844887326556011118366482590441590430109690,
  776385948820678856192967247242283866976218256255194872163168421627032928640826645969421127655988032194733123683014677707512137830,
  845445942788498018797507061467838161572075102091329569430176472911616914671236294950147562179389057300508798809439944824584243760,
  902637861984307074217665599231210251341124005372905372555165654779465799102545986857660830250137463316186255654868455012176887790,
  947159066661714250135915283518036754520710337684315270018267779609857644452460807770706197751409076080454705407564853655120531830,
  978385445956470991100580354311926305446916563747318502485414861316505150745012471338934421241119597487299656422120553915250168140,
  995885701145616929003216959322906025956857855119559667396527809405566296633277806451906588056837361949743386038958053626410092630]

/-- `case 26` (Util/Gauss_Legendre_Nodes_and_Weights.hpp:1782-1916), `weights`. -/
def weights26 : List Nat := [
  10551372617343007155651187685251977904345737179694614550055427636763222293509751344444703024130644662411193024636412175000000000,
  24417851092631908789615827519788400240495926197270342052046895075691715698867889653828185363356026562440096125715525700000000000,
  37962383294362763950303141248850494690770421744048957675311824652807900416335847881830285996571150432247763528696756370000000000,
  50975825297147811998319900724073379525879318542971934823837685999417312450031645189364619460060929125212929823314422060000000000,
  63274046329574835539453689907045095722222842012694510666095886607988391712276027661846069159482706910403013765916745100000000000,
  74684149765659745887075796102848338638747161881040680779030841742819630809377462966753041392788873410650813150333202939000000000,
  85045894313485239210447765079981696583920316776678276186056181419987792015305528182286577687707785243533656284001404579000000000,
  94213800355914148463664883067303198549165745914207279863314902368034499283454211333322105448946987685682045677226809150600000000,
  102059161094425423238414070253430792327208811354242010331873819408652668805474002570691814298168621256940499547905820693710000000,
  108471840528576590656579426727997582289438203421306644529605708609461399272905583969431591520651045187628565154539441429252000000,
  113361816546319666549440718442598145245950362925015213988287929887489106564579454492648452935851751777948813004638841971485700000,
  116660443485296582044662507540362213631964881221924216460162697211265665928319726512696339645002059417577132130491198043365979000,
  118321415279262276516371085700468684649890270828905318094320199379620694749562868240856214067281418327323478782583419788635785550,
  118321415279262276516371085700468684649890270828905318094320199379620694749562868240856214067281418327323478782583419788635785550,
  116660443485296582044662507540362213631964881221924216460162697211265665928319726512696339645002059417577132130491198043365979000,
  113361816546319666549440718442598145245950362925015213988287929887489106564579454492648452935851751777948813004638841971485700000,
  108471840528576590656579426727997582289438203421306644529605708609461399272905583969431591520651045187628565154539441429252000000,
  102059161094425423238414070253430792327208811354242010331873819408652668805474002570691814298168621256940499547905820693710000000,
  94213800355914148463664883067303198549165745914207279863314902368034499283454211333322105448946987685682045677226809150600000000,
  85045894313485239210447765079981696583920316776678276186056181419987792015305528182286577687707785243533656284001404579000000000,
  74684149765659745887075796102848338638747161881040680779030841742819630809377462966753041392788873410650813150333202939000000000,
  63274046329574835539453689907045095722222842012694510666095886607988391712276027661846069159482706910403013765916745100000000000,
  50975825297147811998319900724073379525879318542971934823837685999417312450031645189364619460060929125212929823314422060000000000,
  37962383294362763950303141248850494690770421744048957675311824652807900416335847881830285996571150432247763528696756370000000000,
  24417851092631908789615827519788400240495926197270342052046895075691715698867889653828185363356026562440096125715525700000000000,
  10551372617343007155651187685251977904345737179694614550055427636763222293509751344444703024130644662411193024636412175000000000]

/-- `case 27` (Util/Gauss_Legendre_Nodes_and_Weights.hpp:1918-2056), `nodes`. -/
def nodes27 : List Int := [
  -996179262888988566938887208381229990260688055565871187701636496788217745577325812088762046721574622212508679488656014426977260640,
  -979923475961501222855873355661047184567642221389950763238859893052382575980218946305416975594503807844069819595153791001829444450,
  -950900557814705006851908030643882893092589933484417650933817390787386668809911485791619586596540351499931514311048334521160674700,
  -909482320677491104300645018209689254948044335594960959113227552472056266352528022454953205250383862623255780774960654846537743760,
  -856207908018294490302737222706842797764286998603505826977189654128803319385808980529756685304201950368857413105008306155796652090,
  -791771639070508227144397344107270732919401065747863512407280612046820484873794530118518877131841110745698580056887024398806012090,
  -717013473739423699294816211642339549750672052098563142651216206335694832316134333375021909455866418390611876354933325199179028470,
  -632907971946495140927734637634488612103076017569336697295111899023400690997081780020526694649604119038515896945974160929022478590,
  -540551564579456894900300941559982820959180448987181690374337750035940896716381225424480683294569270289157930021320055292157128750,
  -441148251750026880585974155689281452447684595163099388145387213403200696279495918085063793921022303874182015266057796222594674120,
  -335993903638508899730319034207284541790020018907594190724986707095009322854559785235138047381056280093297843282731478915146390360,
  -226459365439536858857239107360230171179446732928203676646628997183777133773007130225559064721966305193121628687165758383217735840,
  -113972585609529966932894983869976627173280533978140994765753909766365488788410745396379480639796629548116827715212651777217867470,
  0,
  113972585609529966932894983869976627173280533978140994765753909766365488788410745396379480639796629548116827715212651777217867470,
  226459365439536858857239107360230171179446732928203676646628997183777133773007130225559064721966305193121628687165758383217735840,
  335993903638508899730319034207284541790020018907594190724986707095009322854559785235138047381056280093297843282731478915146390360,
  441148251750026880585974155689281452447684595163099388145387213403200696279495918085063793921022303874182015266057796222594674120,
  540551564579456894900300941559982820959180448987181690374337750035940896716381225424480683294569270289157930021320055292157128750,
  632907971946495140927734637634488612103076017569336697295111899023400690997081780020526694649604119038515896945974160929022478590,
  717013473739423699294816211642339549750672052098563142651216206335694832316134333375021909455866418390611876354933325199179028470,
  791771639070508227144397344107270732919401065747863512407280612046820484873794530118518877131841110745698580056887024398806012090,
  856207908018294490302737222706842797764286998603505826977189654128803319385808980529756685304201950368857413105008306155796652090,
  909482320677491104300645018209689254948044335594960959113227552472056266352528022454953205250383862623255780774960654846537743760,
  950900557814705006851908030643882893092589933484417650933817390787386668809911485791619586596540351499931514311048334521160674700,
  979923475961501222855873355661047184567642221389950763238859893052382575980218946305416975594503807844069819595153791001829444450,
  996179262888988566938887208381229990260688055565871187701636496788217745577325812088762046721574622212508679488656014426977260640]

/-- `case 27` (Util/Gauss_Legendre_Nodes_and_Weights.hpp:1918-2056), `weights`. -/
def weights27 : List Nat := [
  9798996051294360261150055091259098098225818935091592168140404565862630417668112155419382202214929285770325600703789564000000000,
  22686231596180623196034206446761488812767720288166355631442130239075830035810022154569922346263224595090680104291551220000000000,
  35297053757419711022578289304711641136138889522941811582227785094908826628355662884471803203613432232144410561419456330000000000,
  47449412520615062704096710114184718224725620166184728517310012669178211857035924042110693777135519226993930429846222540000000000,
  58983536859833599110300833719531633165240590706412162540215214913821129663604553384234521953709517759160275564401023650000000000,
  69748823766245592984322888356667276132824693256952000377418781621059358808563582672562540483268098294679634778502653470000000000,
  79604867773057771263074959009842402976146672987002951413408763802752726441220193151425185660019948586732913360368630754000000000,
  88423158543756950194322802853749111056536750051099109805871137096592699191457087488835904657489750508652300117187965795800000000,
  96088727370028507565652646558105859160211629537029334428131113534015134783806545259609305381605457925680571361686300320800000000,
  102501637817745798671247711532663809324409894914717329869781832382987479492595892744010659856648285413105638880215182131830000000,
  107578285788533187212162984426657404818966099063764665512358906515194492144019827691546555890708626062542977580915739811254300000,
  111252488356845192672163096042848674832920380085083267096403509697932078271318343752474139540473836934515454334893043948595870000,
  113476346108965148620369948092099257920524518810472025896416549577022339593967626563591963497923777406332829035119248956391747200,
  114220867378956989045045736901835248680721443350165330321747716579194125341153252110274843097851191537196116580898382996744073560,
  113476346108965148620369948092099257920524518810472025896416549577022339593967626563591963497923777406332829035119248956391747200,
  111252488356845192672163096042848674832920380085083267096403509697932078271318343752474139540473836934515454334893043948595870000,
  107578285788533187212162984426657404818966099063764665512358906515194492144019827691546555890708626062542977580915739811254300000,
  102501637817745798671247711532663809324409894914717329869781832382987479492595892744010659856648285413105638880215182131830000000,
  96088727370028507565652646558105859160211629537029334428131113534015134783806545259609305381605457925680571361686300320800000000,
  88423158543756950194322802853749111056536750051099109805871137096592699191457087488835904657489750508652300117187965795800000000,
  79604867773057771263074959009842402976146672987002951413408763802752726441220193151425185660019948586732913360368630754000000000,
  69748823766245592984322888356667276132824693256952000377418781621059358808563582672562540483268098294679634778502653470000000000,
  58983536859833599110300833719531633165240590706412162540215214913821129663604553384234521953709517759160275564401023650000000000,
  47449412520615062704096710114184718224725620166184728517310012669178211857035924042110693777135519226993930429846222540000000000,
  35297053757419711022578289304711641136138889522941811582227785094908826628355662884471803203613432232144410561419456330000000000,
  22686231596180623196034206446761488812767720288166355631442130239075830035810022154569922346263224595090680104291551220000000000,
  9798996051294360261150055091259098098225818935091592168140404565862630417668112155419382202214929285770325600703789564000000000]

/-- `case 28` (Util/Gauss_Legendre_Nodes_and_Weights.hpp:2058-2202), `nodes`. -/
def nodes28 : List Int := [
  -996442497573954449950436390483310991750130432096425904585672329490484218961068725320715406608400390653652503711909038010286254880,
  -981303165370872753694559945807830276444154953253138309676025681458728451921776799501926927055513782717300239345792428221080059550,
  -954259280628938197254101839705215589003403874087951675414714448623830640595830798860816305528599537639056655079611235080087297450,
  -915633026392132073869689423329927146352496795209121508661500244603008178507040720102798148353658172465084193677756033422418410580,
  -865892522574395048942254567379686804341862830784226336977546733016694408565122385922573168084633429451245729561428370272065273550,
  -805641370917179171447885955425277658671701414808311668210687161780389543260872034798401034298238216116650382288586826334291451260,
  -735610878013631772028144510292534368016061019993041893228527776335811258469330190933408441662542222081279845750316533803362549570,
  -656651094038864961219898176506742821569601690249929961831703497495850300983625782188355601275014175963326681234884765476574774990,
  -569720471811401719308003283356430933124712685656647227820029677662214752637283000505083611383736210428868852568712434559190856480,
  -475874224955118261034411847667434042627216145378655951409112692943272374198972891127141195623349480095688073058890901895962611990,
  -376251516089078710221357209556086982871693977043222910344352720393831718842956403828277333735475118739190103008706921938344841570,
  -272061627635178077676826356125769734824761296693522952499675926502442340240913696786788926255946462145087819017415832226781741630,
  -164569282133380771281471777891165457145725415601168176494285626695331850475696447818244364979785207464530395125669950352816253540,
  -55079289884034270426516527341879977850795991060833683745338587258894544534307576648412725465429979721497350116499348570494586526,
  55079289884034270426516527341879977850795991060833683745338587258894544534307576648412725465429979721497350116499348570494586526,
  164569282133380771281471777891165457145725415601168176494285626695331850475696447818244364979785207464530395125669950352816253540,
  272061627635178077676826356125769734824761296693522952499675926502442340240913696786788926255946462145087819017415832226781741630,
  376251516089078710221357209556086982871693977043222910344352720393831718842956403828277333735475118739190103008706921938344841570,
  475874224955118261034411847667434042627216145378655951409112692943272374198972891127141195623349480095688073058890901895962611990,
  569720471811401719308003283356430933124712685656647227820029677662214752637283000505083611383736210428868852568712434559190856480,
  656651094038864961219898176506742821569601690249929961831703497495850300983625782188355601275014175963326681234884765476574774990,
  735610878013631772028144510292534368016061019993041893228527776335811258469330190933408441662542222081279845750316533803362549570,
  805641370917179171447885955425277658671701414808311668210687161780389543260872034798401034298238216116650382288586826334291451260,
  865892522574395048942254567379686804341862830784226336977546733016694408565122385922573168084633429451245729561428370272065273550,
  915633026392132073869689423329927146352496795209121508661500244603008178507040720102798148353658172465084193677756033422418410580,
  954259280628938197254101839705215589003403874087951675414714448623830640595830798860816305528599537639056655079611235080087297450,
  981303165370872753694559945807830276444154953253138309676025681458728451921776799501926927055513782717300239345792428221080059550,
  996442497573954449950436390483310991750130432096425904585672329490484218961068725320715406608400390653652503711909038010286254880]

/-- `case 28` (Util/Gauss_Legendre_Nodes_and_Weights.hpp:2058-2202), `weights`. -/
def weights28 : List Nat := [
  9124282593094517738816153922951706240344491098290999416739691323899459865798129145091630865234989834113914351519333720000000000,
  21132112592771259751500380993265434451369350723285637797668490251065155753577091964152453379610286687598235509053085500000000000,
  32901427782304379977630819170532045981530817420097187859261620603764636692612740723425030611842420906196620837403074600000000000,
  44272934759004227839587877653207390614994112708566843715147061884224177613699931493632452509398265789896639163080603800000000000,
  55107345675716745431482918226945591219057964225665388406892753972942623219342597686522624256635084277891115940732348100000000000,
  65272923966999595793397566775504636353635431162607026335484818152076894738987940474007219870879292088454514968872705170000000000,
  74646214234568779023931887173022038021635861206333447439320056214963842065377299348716339089944692920662601474280034050000000000,
  83113417228901218390396498244332479861134413443851332996355671732542452826034284750342900160741061831907215821104481828000000000,
  90571744393032840942186031336784129822857485454484872375868533854456715466742704365662179434197961733611276222679714585100000000,
  96930657997929915850489006095440601765033123356461604956876281814369394077547307096428487707036627124822536546915005576920000000,
  102112967578060769814216638505712135046580002357920540933975452202846398437033640698060609702792574694363923247730345227430000000,
  106055765922846417910416436996810828789922962685159516830620296285922512739410386738824142483496201227307861108963016535664400000,
  108711192258294135253571519303673367875278454666043967657121170477313326383128788108242663150355703702326980895978636929100207000,
  110047013016475196282376265601817613956625529491231633278668101229612410120707157406891266777834837180846563911687614309779922150,
  110047013016475196282376265601817613956625529491231633278668101229612410120707157406891266777834837180846563911687614309779922150,
  108711192258294135253571519303673367875278454666043967657121170477313326383128788108242663150355703702326980895978636929100207000,
  106055765922846417910416436996810828789922962685159516830620296285922512739410386738824142483496201227307861108963016535664400000,
  102112967578060769814216638505712135046580002357920540933975452202846398437033640698060609702792574694363923247730345227430000000,
  96930657997929915850489006095440601765033123356461604956876281814369394077547307096428487707036627124822536546915005576920000000,
  90571744393032840942186031336784129822857485454484872375868533854456715466742704365662179434197961733611276222679714585100000000,
  83113417228901218390396498244332479861134413443851332996355671732542452826034284750342900160741061831907215821104481828000000000,
  74646214234568779023931887173022038021635861206333447439320056214963842065377299348716339089944692920662601474280034050000000000,
  65272923966999595793397566775504636353635431162607026335484818152076894738987940474007219870879292088454514968872705170000000000,
  55107345675716745431482918226945591219057964225665388406892753972942623219342597686522624256635084277891115940732348100000000000,
  44272934759004227839587877653207390614994112708566843715147061884224177613699931493632452509398265789896639163080603800000000000,
  32901427782304379977630819170532045981530817420097187859261620603764636692612740723425030611842420906196620837403074600000000000,
  21132112592771259751500380993265434451369350723285637797668490251065155753577091964152453379610286687598235509053085500000000000,
  9124282593094517738816153922951706240344491098290999416739691323899459865798129145091630865234989834113914351519333720000000000]

/-- `case 29` (Util/Gauss_Legendre_Nodes_and_Weights.hpp:2204-2352), `nodes`. -/
def nodes29 : List Int := [
  -996679442260596586163191532549353885651773453250880002198157323756785585994419744337523963579415203614931844387915863679597507090,
  -982545505261413174870926015786376956106781948906431559025120091446672585715630383552172634716146922803695276360673542168095888030,
  -957285595778087725798208036980823563737559553954097070563529636153341604154324197862005295856664704547991546201755085997396391260,
  -921180232953058785093753436083106425408839343312293598468991463805950013284450274638515186939440031445996199692677841073999594640,
  -874637804920102790417793421256578546910616863119041370727220828714741837086311146838924703040846953102339800432370669907771890720,
  -818185487615252444989572214578784975630021561882293771137034272295316525335575107203059257795003006064276988058303643354657082660,
  -752462851734477133912610077212138190212591968228986608411997991524692130717685913488606322771244193924950867335471147137454150880,
  -678214537602686515156185005391985926388262930014645162723809858949366503200168023083809852070272373423935635468239627764368991440,
  -596281797138227820379586211188989780078186810385577638473462393230342833961739898591254698448834174732089922836684854455877374730,
  -507592955124227642102627919627520153351223840384584164185064307098214366362636822319180467290634543194843893079546796398067147270,
  -413152888174008663890706586031616823323438518736313919778384665254283346211972797050039460926207024508636804233955837158218160200,
  -314031637867639934948195923191047448258448819090827481296758930894446697429433442540515467505380154633847970631574336132365300670,
  -211352286166001074506375728902937499056650817712095148038400845322058911108011778098578428204516413623836929053589072670668573760,
  -106278230132679230170982392430376980917195439295607136285775274022165343751584640943004460620565417151010505868443793529941301620,
  0,
  106278230132679230170982392430376980917195439295607136285775274022165343751584640943004460620565417151010505868443793529941301620,
  211352286166001074506375728902937499056650817712095148038400845322058911108011778098578428204516413623836929053589072670668573760,
  314031637867639934948195923191047448258448819090827481296758930894446697429433442540515467505380154633847970631574336132365300670,
  413152888174008663890706586031616823323438518736313919778384665254283346211972797050039460926207024508636804233955837158218160200,
  507592955124227642102627919627520153351223840384584164185064307098214366362636822319180467290634543194843893079546796398067147270,
  596281797138227820379586211188989780078186810385577638473462393230342833961739898591254698448834174732089922836684854455877374730,
  678214537602686515156185005391985926388262930014645162723809858949366503200168023083809852070272373423935635468239627764368991440,
  752462851734477133912610077212138190212591968228986608411997991524692130717685913488606322771244193924950867335471147137454150880,
  818185487615252444989572214578784975630021561882293771137034272295316525335575107203059257795003006064276988058303643354657082660,
  874637804920102790417793421256578546910616863119041370727220828714741837086311146838924703040846953102339800432370669907771890720,
  921180232953058785093753436083106425408839343312293598468991463805950013284450274638515186939440031445996199692677841073999594640,
  957285595778087725798208036980823563737559553954097070563529636153341604154324197862005295856664704547991546201755085997396391260,
  982545505261413174870926015786376956106781948906431559025120091446672585715630383552172634716146922803695276360673542168095888030,
  996679442260596586163191532549353885651773453250880002198157323756785585994419744337523963579415203614931844387915863679597507090]

/-- `case 29` (Util/Gauss_Legendre_Nodes_and_Weights.hpp:2204-2352), `weights`. -/
def weights29 : List Nat := [
  8516903878746409654263813302249803002398889798518486052430094559465291587805764837701857101426068060659352634088244200000000000,
  19732085056122705983859801640395631149606568190361587656053844675344356338861112906164339707798971642975528669100309400000000000,
  30740492202093622644408525374616749747116260968709510322084359366351632435895616717310421056473776378400086792916217400000000000,
  41402062518682836104830010114076921533490780388574397257924879434792437056371037082864666595947918993795674206391665600000000000,
  51594826902497923912594381179542597919622110646142067681862831327304120292898420509258322462558540770653850866478617500000000000,
  61203090657079138542109848023907044924064539779130208317877412111994444075355510981522107781772710962733851974688495800000000000,
  70117933255051278569581486948879173102394888674773581914807424860007957142982517640752173847712322133122452937500187960000000000,
  78238327135763783828144888659680331366879076959669709467575195324760544207232294769323157066651027426143601956188549137000000000,
  85472257366172527545344849297208071381698256613593395321890743382431992555672353620424846771330006742797981390536740800000000000,
  91737757139258763347966411077110806898229020981954571275829874698693724315494495101011826988743016476082380535055745285400000000,
  96963834094408606301900074882688759176356277921803564260495466746232877901778582289151271793893577125530066105686380526880000000,
  101091273759914966121820546907497363647567278852525199122832023305777020369225805588931665433813568755802936570679901222490800000,
  104073310077729373913328471285120068910652220675467691643694054147880301085493839149225001371334744230120198620907953851697520000,
  105876155097320941406591327852187893074831313742278039828155345525022638169139456383971019197288498122132241615271875954825698100,
  106479381718314244246511126909677568330185031612995979752972901067881324931586384844774645646510504358099590249018230998153809360,
  105876155097320941406591327852187893074831313742278039828155345525022638169139456383971019197288498122132241615271875954825698100,
  104073310077729373913328471285120068910652220675467691643694054147880301085493839149225001371334744230120198620907953851697520000,
  101091273759914966121820546907497363647567278852525199122832023305777020369225805588931665433813568755802936570679901222490800000,
  96963834094408606301900074882688759176356277921803564260495466746232877901778582289151271793893577125530066105686380526880000000,
  91737757139258763347966411077110806898229020981954571275829874698693724315494495101011826988743016476082380535055745285400000000,
  85472257366172527545344849297208071381698256613593395321890743382431992555672353620424846771330006742797981390536740800000000000,
  78238327135763783828144888659680331366879076959669709467575195324760544207232294769323157066651027426143601956188549137000000000,
  70117933255051278569581486948879173102394888674773581914807424860007957142982517640752173847712322133122452937500187960000000000,
  61203090657079138542109848023907044924064539779130208317877412111994444075355510981522107781772710962733851974688495800000000000,
  51594826902497923912594381179542597919622110646142067681862831327304120292898420509258322462558540770653850866478617500000000000,
  41402062518682836104830010114076921533490780388574397257924879434792437056371037082864666595947918993795674206391665600000000000,
  30740492202093622644408525374616749747116260968709510322084359366351632435895616717310421056473776378400086792916217400000000000,
  19732085056122705983859801640395631149606568190361587656053844675344356338861112906164339707798971642975528669100309400000000000,
  8516903878746409654263813302249803002398889798518486052430094559465291587805764837701857101426068060659352634088244200000000000]

/-- `case 30` (Util/Gauss_Legendre_Nodes_and_Weights.hpp:2354-2508), `nodes`. -/
def nodes30 : List Int := [
  -996893484074649540271630050918695283340882038117750790108094297802387695210163740815882019558061717412574050959638168316437802250,
  -983668123279747209970032581605662801940317854709711363517180010151144295364791043702075971660354713680577625601372093312015997810,
  -960021864968307512216871025581797662930359217403923399485661672424939957707068429227189443703800023782391726774543843204887357380,
  -926200047429274325879324277080474004086474536825329060911037133679422995651102326816772880150558862444861062983200678524892124220,
  -882560535792052681543116462530225590056689147146484232068326053121616262695191655729215838285732104853490581068495482382736932380,
  -829565762382768397442898119732501916439068696170341678806952983453656506589581635082952443508140160043715454557777316622802906710,
  -767777432104826194917977340974503131694883617232908453206494387365158570172995045052609602586239684202246975965017192881687594820,
  -697850494793315796932292388026640068382353800653954656379722846739976721243159960695381636440089046905450694399413409299439262650,
  -620526182989242861140477556431189299207364692829528132595051170124335314974889117741152584455327821064787899961374806695022556630,
  -536624148142019899264169793311072794164178006930297105452743482912014908618978378631141160097189902580915858307035573985876184580,
  -447033769538089176780609900322854000162407593861424409754477381727615351728584207004006888721241898342572620487396988054271659410,
  -352704725530878113471037207089373860653631008021425626594184468900269416233191078664360396752113529451658178270831039490168515650,
  -254636926167889846439805129817805107882789303302518426164285975088963531569078802906366281384236202575955216782557581418656526040,
  -153869913608583546963794672743255920418551971244338461718962982915787148510816101396923106510740785579901117549520619533505051770,
  -51471842555317695833025213166722573749141453666569564255160843987964755210427109055870090707285485841217089963590678285540419113,
  51471842555317695833025213166722573749141453666569564255160843987964755210427109055870090707285485841217089963590678285540419113,
  153869913608583546963794672743255920418551971244338461718962982915787148510816101396923106510740785579901117549520619533505051770,
  254636926167889846439805129817805107882789303302518426164285975088963531569078802906366281384236202575955216782557581418656526040,
  352704725530878113471037207089373860653631008021425626594184468900269416233191078664360396752113529451658178270831039490168515650,
  447033769538089176780609900322854000162407593861424409754477381727615351728584207004006888721241898342572620487396988054271659410,
  536624148142019899264169793311072794164178006930297105452743482912014908618978378631141160097189902580915858307035573985876184580,
  620526182989242861140477556431189299207364692829528132595051170124335314974889117741152584455327821064787899961374806695022556630,
  697850494793315796932292388026640068382353800653954656379722846739976721243159960695381636440089046905450694399413409299439262650,
  767777432104826194917977340974503131694883617232908453206494387365158570172995045052609602586239684202246975965017192881687594820,
  829565762382768397442898119732501916439068696170341678806952983453656506589581635082952443508140160043715454557777316622802906710,
  882560535792052681543116462530225590056689147146484232068326053121616262695191655729215838285732104853490581068495482382736932380,
  926200047429274325879324277080474004086474536825329060911037133679422995651102326816772880150558862444861062983200678524892124220,
  960021864968307512216871025581797662930359217403923399485661672424939957707068429227189443703800023782391726774543843204887357380,
  983668123279747209970032581605662801940317854709711363517180010151144295364791043702075971660354713680577625601372093312015997810,
  996893484074649540271630050918695283340882038117750790108094297802387695210163740815882019558061717412574050959638168316437802250]

/-- `case 30` (Util/Gauss_Legendre_Nodes_and_Weights.hpp:2354-2508), `weights`. -/
def weights30 : List Nat := [
  7968192496166605615465883474673622450480696587151721229485163356920038432901333294153661692286173520984650656215881690000000000,
  18466468311090959142302131912047269096206533968181403371298365514585599521307973654080519029675417955638095832046163600000000000,
  28784707883323369349719179611292043639588894546287496474180122608145988940013933101730206711484171554940392262251283000000000000,
  38799192569627049596801936446347692033200976766395352107732789705946970952769793919055026279035105656340228558382274000000000000,
  48402672830594052902938140422807517815271809197372736345191936791805425677102152797767439563562263454374645955072007400000000000,
  57493156217619066481721689402056128797120670721763134548715799003232147409954376925211999650950125355559974348279845600000000000,
  65974229882180495128128515115962361237442953656660378967031516042143672466094179365819913911598737439478205808271237400000000000,
  73755974737705206268243850022190734153770526037049438941269182374599399314635211710401352716638183270192254236882630110000000000,
  80755895229420215354694938460529730875892803708439299890258593706051180567026345604212402769217808080749416147400961856000000000,
  86899787201082979802387530715125702576753328743545344012222129882153582254261494247955033509639105330215477601953920940700000000,
  92122522237786128717632707087618767196913234418234107527675047001973047070094168298464052916811907158954949394100501369610000000,
  96368737174644259639468626351809865096406461430160245912994275732837534742003123724951247818104195363343093583583428819700000000,
  99593420586795267062780282103569476529869263666704277221365146183946660389908809018092299289324184705373523229592036752223500000,
  101762389748405504596428952168554044632706289487126840864260945419642513605317674945475997819783911988816933858876964988601882000,
  102852652893558840341285636705415043868375557064928222586318986676016238656609429392628846321888709165038158527090862559005344600,
  102852652893558840341285636705415043868375557064928222586318986676016238656609429392628846321888709165038158527090862559005344600,
  101762389748405504596428952168554044632706289487126840864260945419642513605317674945475997819783911988816933858876964988601882000,
  99593420586795267062780282103569476529869263666704277221365146183946660389908809018092299289324184705373523229592036752223500000,
  96368737174644259639468626351809865096406461430160245912994275732837534742003123724951247818104195363343093583583428819700000000,
  92122522237786128717632707087618767196913234418234107527675047001973047070094168298464052916811907158954949394100501369610000000,
  86899787201082979802387530715125702576753328743545344012222129882153582254261494247955033509639105330215477601953920940700000000,
  80755895229420215354694938460529730875892803708439299890258593706051180567026345604212402769217808080749416147400961856000000000,
  73755974737705206268243850022190734153770526037049438941269182374599399314635211710401352716638183270192254236882630110000000000,
  65974229882180495128128515115962361237442953656660378967031516042143672466094179365819913911598737439478205808271237400000000000,
  57493156217619066481721689402056128797120670721763134548715799003232147409954376925211999650950125355559974348279845600000000000,
  48402672830594052902938140422807517815271809197372736345191936791805425677102152797767439563562263454374645955072007400000000000,
  38799192569627049596801936446347692033200976766395352107732789705946970952769793919055026279035105656340228558382274000000000000,
  28784707883323369349719179611292043639588894546287496474180122608145988940013933101730206711484171554940392262251283000000000000,
  18466468311090959142302131912047269096206533968181403371298365514585599521307973654080519029675417955638095832046163600000000000,
  7968192496166605615465883474673622450480696587151721229485163356920038432901333294153661692286173520984650656215881690000000000]

/-- `case 31` (Util/Gauss_Legendre_Nodes_and_Weights.hpp:2510-2668), `nodes`. -/
def nodes31 : List Int := [
  -997087481819477074055626554223102508251445334117069630792123718926656544720860433022343371205246945911156979835135949773054546050,
  -984685909665152484002465166734684710938518269514643670945728659395459953888544727488087445959998080164673438057464874871780574510,
  -962503925092949661789052404105858301897219485152558376773351357029971979930596116552964366942501028857762446470656635340149568730,
  -930756997896648164956945759729263512813397687258082036455336375190682941842363034246435076332805137023079595672045060731698004360,
  -889760029948271043374192008982159261543597411865190949763132055926171001936085064997129117687631732288589326283106585300371746610,
  -839920320146267340086904535940178356054737301074749522831360613894946828265357111065698855597404713965315328294513584231954437980,
  -781733148416624940406360020194684491095410372013398880064875062703557503203841693798130210068845710680304233796315688519011083830,
  -715776784586853283905970865366485955890193476169588432628108245605086273751074193044844215141831571840606950910709844453831816410,
  -642706722924260346184418203232501453991690683336206756509304596476133405240513261668844497561478810541260580616175585935162681640,
  -563249161407149262720944923595161427948602273166887030985768783687455380783644840525085419410373547634139106821866286502477415830,
  -478193782044902480440594039356485748439523371497423124838161050999136878637093277943258356838876546418725964837420607546974377960,
  -388385901608232943061351461287520101985106267893544035757812878471678072170798683496644339611119235851355315436243341334639187860,
  -294718069981701616617903897671704338752855185278358556936295882236069569877098191156814325242835367446823341625267557841198127190,
  -198121199335570628772412996032833937774794812161554879986802254256005206004604644868791019952986440574371764767058004206923219590,
  -99555312152341520325174790118940733838995358777527306060227090977269875529596066065577718031464207183068058857465675292791030439,
  0,
  99555312152341520325174790118940733838995358777527306060227090977269875529596066065577718031464207183068058857465675292791030439,
  198121199335570628772412996032833937774794812161554879986802254256005206004604644868791019952986440574371764767058004206923219590,
  294718069981701616617903897671704338752855185278358556936295882236069569877098191156814325242835367446823341625267557841198127190,
  388385901608232943061351461287520101985106267893544035757812878471678072170798683496644339611119235851355315436243341334639187860,
  478193782044902480440594039356485748439523371497423124838161050999136878637093277943258356838876546418725964837420607546974377960,
  563249161407149262720944923595161427948602273166887030985768783687455380783644840525085419410373547634139106821866286502477415830,
  642706722924260346184418203232501453991690683336206756509304596476133405240513261668844497561478810541260580616175585935162681640,
  715776784586853283905970865366485955890193476169588432628108245605086273751074193044844215141831571840606950910709844453831816410,
  781733148416624940406360020194684491095410372013398880064875062703557503203841693798130210068845710680304233796315688519011083830,
  839920320146267340086904535940178356054737301074749522831360613894946828265357111065698855597404713965315328294513584231954437980,
  889760029948271043374192008982159261543597411865190949763132055926171001936085064997129117687631732288589326283106585300371746610,
  930756997896648164956945759729263512813397687258082036455336375190682941842363034246435076332805137023079595672045060731698004360,
  962503925092949661789052404105858301897219485152558376773351357029971979930596116552964366942501028857762446470656635340149568730,
  984685909665152484002465166734684710938518269514643670945728659395459953888544727488087445959998080164673438057464874871780574510,
  997087481819477074055626554223102508251445334117069630792123718926656544720860433022343371205246945911156979835135949773054546050]

/-- `case 31` (Util/Gauss_Legendre_Nodes_and_Weights.hpp:2510-2668), `weights`. -/
def weights31 : List Nat := [
  7470831579248775858696875032212407022150852484048039699270970328678273100174321681955848402294104230725889217530374700000000000,
  17318620790310582463157996086821141366272862767995776632755183788810154415145842302045109753444659352111187010736394000000000000,
  27009019184979421800608708091932156142356646002116645856874749847270088824872802356612302398436983892280858261489734000000000000,
  36432273912385464024392010467803442327145332047667685901419039396333407968524090475547727834649170557979941719188801000000000000,
  45493707527201102902315857894629677263552719310028964893516636121524389991270210220122112498720609101502584696567726000000000000,
  54103082424916853711666259086620042720389462596211807694007821051299903058064771603436316542359248195036776397265812900000000000,
  62174786561028426910343543686696667158728799364651315281507505331491094622768517761919125407832065530423490011527595500000000000,
  69628583235410366167756126255125710515085707397343393711072717036742691277869416110114526615626597553616644866628383560000000000,
  76390386598776616426357674901330644925756913694208654092190081646408251933948565934902802069352655021349775202049602480000000000,
  82392991761589263903823367431961770615768266556646277810383924250630866646533640415251208990577233201531998312589160103000000000,
  87576740608477876126198069695333092229258159771204251503541211969125424504099698963668218439463650583135396240275465454600000000,
  91890113893641478215362871607150125497310825379157804178485616504248704347424148067663730545289291591449008117983690137690000000,
  95290242912319512807204197487596684541324738246959022711449465928468805636492790121240925995682837406967748724799097236607500000,
  97743335386328725093474010978996703835728788676095114509514644501452463147080042419007751677805022923265654594640361101142000000,
  99225011226672307874875514428615014017543219955563069781203142515469074470357704334307724107415166424549357124065778742409534000,
  99720544793426451427533833734349439643253411500204351485614579564092812110746874464409137442101408868147379005324045679852683065,
  99225011226672307874875514428615014017543219955563069781203142515469074470357704334307724107415166424549357124065778742409534000,
  97743335386328725093474010978996703835728788676095114509514644501452463147080042419007751677805022923265654594640361101142000000,
  95290242912319512807204197487596684541324738246959022711449465928468805636492790121240925995682837406967748724799097236607500000,
  91890113893641478215362871607150125497310825379157804178485616504248704347424148067663730545289291591449008117983690137690000000,
  87576740608477876126198069695333092229258159771204251503541211969125424504099698963668218439463650583135396240275465454600000000,
  82392991761589263903823367431961770615768266556646277810383924250630866646533640415251208990577233201531998312589160103000000000,
  76390386598776616426357674901330644925756913694208654092190081646408251933948565934902802069352655021349775202049602480000000000,
  69628583235410366167756126255125710515085707397343393711072717036742691277869416110114526615626597553616644866628383560000000000,
  62174786561028426910343543686696667158728799364651315281507505331491094622768517761919125407832065530423490011527595500000000000,
  54103082424916853711666259086620042720389462596211807694007821051299903058064771603436316542359248195036776397265812900000000000,
  45493707527201102902315857894629677263552719310028964893516636121524389991270210220122112498720609101502584696567726000000000000,
  36432273912385464024392010467803442327145332047667685901419039396333407968524090475547727834649170557979941719188801000000000000,
  27009019184979421800608708091932156142356646002116645856874749847270088824872802356612302398436983892280858261489734000000000000,
  17318620790310582463157996086821141366272862767995776632755183788810154415145842302045109753444659352111187010736394000000000000,
  7470831579248775858696875032212407022150852484048039699270970328678273100174321681955848402294104230725889217530374700000000000]

/-- `case 32` (Util/Gauss_Legendre_Nodes_and_Weights.hpp:2670-2834), `nodes`. -/
def nodes32 : List Int := [
  -997263861849481563544981128665040727138537663729461159301118545786235908391741852013045669308542641647428048220093655164551068620,
  -985611511545268335400175044630901978632395714335806318210782170582030584719375594666384648551097026611535383986236460664363402170,
  -964762255587506430773811928118274960388895220443018719322011321837099525486703800824380187756222700284074091074148351998744123630,
  -934906075937739689170919134835409325528671432282837218458403739811816194718293285541888083141792772835960628045092142798885005870,
  -896321155766052123965307243719212268478996496795759576563615412965024979491040917349450378316766665420270533337428552281950760000,
  -849367613732569970133693004967742538954886793049759233100219598613724656141562558741881463752754991143937635778596582088915769690,
  -794483795967942406963097298970428902095479401638835453250758244972059392281642665424187896789082122839704148012663029406757818090,
  -732182118740289680387426665091267146630270483506629100821139573270385253587797727611292298988652560055905228466313310601075333830,
  -663044266930215200975115168663238368977022285960505301017083496492446174923222940436898153661196535668682033280412674294990073130,
  -587715757240762329040745476401826858450940115454420572703178847312922858668447431140814510201866176497942951079074791902377493310,
  -506899908932229390023747474377821230180283699599435463974366280970771264047876444226619021312452204799987691659685453744704790540,
  -421351276130635345364119436172426478335877288632443330541661340455719046254983731560763305567574063873988409339457465116097887950,
  -331868602282127649779916805730187996195775136805059836018229630628537682965743816980973185231274326300594355150855937783427430390,
  -239287362252137074544603209165501520608855421960253015547096099559702913303994391555359369584414781372895807190122463226014575250,
  -144471961582796493485186373598810652203845991315635552137952893824218443816451973110240676997492471398958022075844130159857894660,
  -48307665687738316234812570440502163690847251730848897167793734546368592604277877779406036591117378098828950341137579368975744636,
  48307665687738316234812570440502163690847251730848897167793734546368592604277877779406036591117378098828950341137579368975744636,
  144471961582796493485186373598810652203845991315635552137952893824218443816451973110240676997492471398958022075844130159857894660,
  239287362252137074544603209165501520608855421960253015547096099559702913303994391555359369584414781372895807190122463226014575250,
  331868602282127649779916805730187996195775136805059836018229630628537682965743816980973185231274326300594355150855937783427430390,
  421351276130635345364119436172426478335877288632443330541661340455719046254983731560763305567574063873988409339457465116097887950,
  506899908932229390023747474377821230180283699599435463974366280970771264047876444226619021312452204799987691659685453744704790540,
  587715757240762329040745476401826858450940115454420572703178847312922858668447431140814510201866176497942951079074791902377493310,
  663044266930215200975115168663238368977022285960505301017083496492446174923222940436898153661196535668682033280412674294990073130,
  732182118740289680387426665091267146630270483506629100821139573270385253587797727611292298988652560055905228466313310601075333830,
  794483795967942406963097298970428902095479401638835453250758244972059392281642665424187896789082122839704148012663029406757818090,
  849367613732569970133693004967742538954886793049759233100219598613724656141562558741881463752754991143937635778596582088915769690,
  896321155766052123965307243719212268478996496795759576563615412965024979491040917349450378316766665420270533337428552281950760000,
  934906075937739689170919134835409325528671432282837218458403739811816194718293285541888083141792772835960628045092142798885005870,
  964762255587506430773811928118274960388895220443018719322011321837099525486703800824380187756222700284074091074148351998744123630,
  985611511545268335400175044630901978632395714335806318210782170582030584719375594666384648551097026611535383986236460664363402170,
  997263861849481563544981128665040727138537663729461159301118545786235908391741852013045669308542641647428048220093655164551068620]

/-- `case 32` (Util/Gauss_Legendre_Nodes_and_Weights.hpp:2670-2834), `weights`. -/
def weights32 : List Nat := [
  7018610009470096600407063738853182513377220728939603232008235619215124145417868695329737690757321507793615554579059400000000000,
  16274394730905670605170562206386618179542963795209566429593174961336965175291785765184442558669283307104236600286168000000000000,
  25392065309262059455752589789224029287554047546948720936251282219215478853237664596045701633898833202932453123340183000000000000,
  34273862913021433102687732252372706994840202911627433781405745419231052216898444629444272462444576066624424230526602000000000000,
  42835898022226680656878646606125528492810857598940739562021940891104391696257226135913802596159697951147253946736741000000000000,
  50998059262376176196163244689521695260184776739762843706907123652503051038513782126744219386835829214789971451936357000000000000,
  58684093478535547145283637300170886750120467457546758715003278613287751801909064374312365343705211690189570481313446800000000000,
  65822222776361846837650063706938772877536447373246515371091669685241244201862731628004444776460905415176138837886115200000000000,
  72345794108848506225399356478487791604336983301824870739763282351176534581680040287447595859165742907302769458293057440000000000,
  78193895787070306471740918828306671039786798482159190307481553869493700115196435401943819761440851294456424770323467368000000000,
  83311924226946755222199074604348611538746883942834459840186404728759406924438096653625565045231504201237290557250602885200000000,
  87652093004403811142771462751802287548449721701757222319222803474706115021138023926302166577158137936468519124884815805940000000,
  91173878695763884712868577111637062544861413275390005323127873977703152061301751359742641714587862265402736765030801987025000000,
  93844399080804565639180237668117260036100075746236450050627569635569511862309807509780420768253027755530786491707882835242000000,
  95638720079274859419082002204131100594890508162005550952989850943706744436600625613361416719084750823847488823007711299075288000,
  96540088514727800566764830063575794736860631235570068732318209957749775867946651296817387106146464459996319782896986982025155920,
  96540088514727800566764830063575794736860631235570068732318209957749775867946651296817387106146464459996319782896986982025155920,
  95638720079274859419082002204131100594890508162005550952989850943706744436600625613361416719084750823847488823007711299075288000,
  93844399080804565639180237668117260036100075746236450050627569635569511862309807509780420768253027755530786491707882835242000000,
  91173878695763884712868577111637062544861413275390005323127873977703152061301751359742641714587862265402736765030801987025000000,
  87652093004403811142771462751802287548449721701757222319222803474706115021138023926302166577158137936468519124884815805940000000,
  83311924226946755222199074604348611538746883942834459840186404728759406924438096653625565045231504201237290557250602885200000000,
  78193895787070306471740918828306671039786798482159190307481553869493700115196435401943819761440851294456424770323467368000000000,
  72345794108848506225399356478487791604336983301824870739763282351176534581680040287447595859165742907302769458293057440000000000,
  65822222776361846837650063706938772877536447373246515371091669685241244201862731628004444776460905415176138837886115200000000000,
  58684093478535547145283637300170886750120467457546758715003278613287751801909064374312365343705211690189570481313446800000000000,
  50998059262376176196163244689521695260184776739762843706907123652503051038513782126744219386835829214789971451936357000000000000,
  42835898022226680656878646606125528492810857598940739562021940891104391696257226135913802596159697951147253946736741000000000000,
  34273862913021433102687732252372706994840202911627433781405745419231052216898444629444272462444576066624424230526602000000000000,
  25392065309262059455752589789224029287554047546948720936251282219215478853237664596045701633898833202932453123340183000000000000,
  16274394730905670605170562206386618179542963795209566429593174961336965175291785765184442558669283307104236600286168000000000000,
  7018610009470096600407063738853182513377220728939603232008235619215124145417868695329737690757321507793615554579059400000000000]

/-- `case 33` (Util/Gauss_Legendre_Nodes_and_Weights.hpp:2836-3004), `nodes`. -/
def nodes33 : List Int := [
  -997424694246455217266168017580404161078229010881361920717040133085444819512271481732859989102830937702675220835329444731838789340,
  -986455726230642488110375698264625921589171114215651099723055658236152529451108360386980003530451681715872814176921799055334388340,
  -966822909689992768928377706678592245218314336579986599646731625828561287773769056193119690360234801417398551675888687250837122050,
  -938694372611168350355835124363553712614434484096546825896609785416039088409651126989695460840197941531420036429828592677692414320,
  -902316767743433583040531331518761607475205558190918114956551290765370193455328527769763392753729885364526324541057013534326878670,
  -858009652676504064643061480146068473327351068896720065797136418701859889917037783492316074578987304397015121623809163307695164020,
  -806162356274166589796200870782777175697710618135446112347125136986567982145833349549839962888106466763911773356218396442555726580,
  -747230496449562157859055124897948268854288086463824478613078542861947211186156672758502058257157255299581777560633925622839199410,
  -681731959969742786268215946919328134668935180714294028922738517028824522501521996736110896694374198631940169516822194393498853620,
  -610242345836379027307287513538097431406342930888033949089531420948427959413016487419790550969004287439028979487724384378383249670,
  -533389904786347643548894264995492125452665092224422469356533089724259332468134733230710400737194311898941967944177739072598750490,
  -451850017272450695725993277240767053798771734390531177426378480220221396912650629239983011577289482413847805040904376293963035460,
  -366339257748073341070220623253871111296934681100140171638205565366957253011438893585164297316487312825411518893153632107837485770,
  -277609097152497029403248067298321005754758329278243218915348089324133411748081873152552549150043847263227704412858335094113573330,
  -186439298827991572335798759218823987837344302823165341609345836051001696250446914539753455144147000028027357384516574027194778910,
  -93631065854733385670742924122537721321505778152636881282025195792894004748646520745926471780673520355946643883171502686894958433,
  0,
  93631065854733385670742924122537721321505778152636881282025195792894004748646520745926471780673520355946643883171502686894958433,
  186439298827991572335798759218823987837344302823165341609345836051001696250446914539753455144147000028027357384516574027194778910,
  277609097152497029403248067298321005754758329278243218915348089324133411748081873152552549150043847263227704412858335094113573330,
  366339257748073341070220623253871111296934681100140171638205565366957253011438893585164297316487312825411518893153632107837485770,
  451850017272450695725993277240767053798771734390531177426378480220221396912650629239983011577289482413847805040904376293963035460,
  533389904786347643548894264995492125452665092224422469356533089724259332468134733230710400737194311898941967944177739072598750490,
  610242345836379027307287513538097431406342930888033949089531420948427959413016487419790550969004287439028979487724384378383249670,
  681731959969742786268215946919328134668935180714294028922738517028824522501521996736110896694374198631940169516822194393498853620,
  747230496449562157859055124897948268854288086463824478613078542861947211186156672758502058257157255299581777560633925622839199410,
  806162356274166589796200870782777175697710618135446112347125136986567982145833349549839962888106466763911773356218396442555726580,
  858009652676504064643061480146068473327351068896720065797136418701859889917037783492316074578987304397015121623809163307695164020,
  902316767743433583040531331518761607475205558190918114956551290765370193455328527769763392753729885364526324541057013534326878670,
  938694372611168350355835124363553712614434484096546825896609785416039088409651126989695460840197941531420036429828592677692414320,
  966822909689992768928377706678592245218314336579986599646731625828561287773769056193119690360234801417398551675888687250837122050,
  986455726230642488110375698264625921589171114215651099723055658236152529451108360386980003530451681715872814176921799055334388340,
  997424694246455217266168017580404161078229010881361920717040133085444819512271481732859989102830937702675220835329444731838789340]

/-- `case 33` (Util/Gauss_Legendre_Nodes_and_Weights.hpp:2836-3004), `weights`. -/
def weights33 : List Nat := [
  6606227847587378058649235208473855031059162503211071349532876047250075599886494428086972040995099030696208143789420000000000000,
  15321701512934676127945768533661866757535354780756236781510010717225485938274167044554470004352709682772559236517607000000000000,
  23915548101749480350533257529186242066008361144514919245562931272269712932111342688193356242237701799560917039628350000000000000,
  32300358632328953281561447249431288068252723050672927229531617043500053317746678459733174414782804720162087917657990000000000000,
  40401541331669591563409790527398496166862788382653916946013918612036223692590950991796299367592104963702103575339074000000000000,
  48147742818711695670146880138119649741751148676969061338269219073307593131878790879467763651923223073530547914291737000000000000,
  55470846631663561284944495439259110420508407150220440344256968225546487076292342258403051040327097074854912134424316000000000000,
  62306482530317480031627725770897611421768427579313106825972531288800778303649169614778366566829783964658625805026657900000000000,
  68594572818656712805955073014958652487361092940388697697070915342312607959850802438866506028365888818845993357355564100000000000,
  74279854843954149342472175918472046710098393196255323464967166860530919625056374536323594918685581875809140967031821000000000000,
  79312364794886738363908384941997588088688029392298642708376306721623331997532627481580853783900468601550588249787176435000000000,
  83647876067038707613928014517660597420327686545826016518832804817783151846031095644809217084140178307600811382291879775900000000,
  87248287618844337607281670945446456566696071293902288391644520490378361100508651067221516072782407977800381081887389097390000000,
  90081958660638577239743705500223621187370682079491484988961030995618823756782089802239646613172213550338790307287672079150800000,
  92123986643316846213240977717363060721471003203981720559903586968771644099513265119756759500141782206301027390392166465081630000,
  93356426065596116160999126274275464952003986088630804966219247739008459630832898842831723220408308492778153935559392619964080300,
  93768446160209996567304541546348784384473363981826681286748695568072579982924517402713458898725291718074303123463565451027683617,
  93356426065596116160999126274275464952003986088630804966219247739008459630832898842831723220408308492778153935559392619964080300,
  92123986643316846213240977717363060721471003203981720559903586968771644099513265119756759500141782206301027390392166465081630000,
  90081958660638577239743705500223621187370682079491484988961030995618823756782089802239646613172213550338790307287672079150800000,
  87248287618844337607281670945446456566696071293902288391644520490378361100508651067221516072782407977800381081887389097390000000,
  83647876067038707613928014517660597420327686545826016518832804817783151846031095644809217084140178307600811382291879775900000000,
  79312364794886738363908384941997588088688029392298642708376306721623331997532627481580853783900468601550588249787176435000000000,
  74279854843954149342472175918472046710098393196255323464967166860530919625056374536323594918685581875809140967031821000000000000,
  68594572818656712805955073014958652487361092940388697697070915342312607959850802438866506028365888818845993357355564100000000000,
  62306482530317480031627725770897611421768427579313106825972531288800778303649169614778366566829783964658625805026657900000000000,
  55470846631663561284944495439259110420508407150220440344256968225546487076292342258403051040327097074854912134424316000000000000,
  48147742818711695670146880138119649741751148676969061338269219073307593131878790879467763651923223073530547914291737000000000000,
  40401541331669591563409790527398496166862788382653916946013918612036223692590950991796299367592104963702103575339074000000000000,
  32300358632328953281561447249431288068252723050672927229531617043500053317746678459733174414782804720162087917657990000000000000,
  23915548101749480350533257529186242066008361144514919245562931272269712932111342688193356242237701799560917039628350000000000000,
  15321701512934676127945768533661866757535354780756236781510010717225485938274167044554470004352709682772559236517607000000000000,
  6606227847587378058649235208473855031059162503211071349532876047250075599886494428086972040995099030696208143789420000000000000]

/-- `case 34` (Util/Gauss_Legendre_Nodes_and_Weights.hpp:3006-3180), `nodes`. -/
def nodes34 : List Int := [
  -997571753790841919243372437454629231400509882684929772939944296552572129955080265216414397115006216060551201498305988395826962530,
  -987227816406309485049750431099684972948770148660132219234408900657490203600316091089616375411736515633534333217461728983973257620,
  -968708262533344281764646573055993510967808745353473335992066923164866939021619509169530054237940204808691001914755314057271163440,
  -942162397405107091631676025460572903006205692337117558213502401697618241671517818055216400607060921226883950619376035266396958200,
  -907809677718324468800899889019287460162397572803152094041463197533385225816981293239306350829895148985243127003636924741476930170,
  -865934638334564469263572090671299844696635301736783068659594207745884246277730520767878869555341438640074290732965828314221801350,
  -816884227900933664591578906586973258393149910974253902119364091941740793877156079106840809023315411984187085917436375176857174070,
  -761064876629873014187408968978736833604499366726196921680016100403613329029764487385923318565626200870061460342150627636325837080,
  -698939113216262907933000106575777182637764031455756310423445408428488415020465283160797906335499423460922834991765787100923951850,
  -631021727080528545317775755519008277810897254073443531045195445000693385585285617079067461158299911725757074559060158445788334020,
  -557875500669746642736459886216274581337441378045353895477017628363020568858171475465699398605521294054879723552335717371224838170,
  -480106545190327034194102680507397108587354948903905784134109263068508674532452051575050587220496171014989390563385958649172925380,
  -398359277758645940631494752932351529342462129655648214647280790792553099232082350680507585745425179035200221865589768597933780000,
  -313311081339463247458316765650977994771229865584492940571506066322495004845190004632450017271219070451497342174656193475120641570,
  -225666691616449483868641180934347244352189721047980552995353256417005142324516311800240684752022195592280762400652699532599966190,
  -136152357259182975894428824331117831497280617764536282105807402386709022107330070507183091380490746410871630709731579192320257460,
  -45509821953102542749075670851930163831084150187205402024425094868360485394939637914324729332915860072226096628860655990505112946,
  45509821953102542749075670851930163831084150187205402024425094868360485394939637914324729332915860072226096628860655990505112946,
  136152357259182975894428824331117831497280617764536282105807402386709022107330070507183091380490746410871630709731579192320257460,
  225666691616449483868641180934347244352189721047980552995353256417005142324516311800240684752022195592280762400652699532599966190,
  313311081339463247458316765650977994771229865584492940571506066322495004845190004632450017271219070451497342174656193475120641570,
  398359277758645940631494752932351529342462129655648214647280790792553099232082350680507585745425179035200221865589768597933780000,
  480106545190327034194102680507397108587354948903905784134109263068508674532452051575050587220496171014989390563385958649172925380,
  557875500669746642736459886216274581337441378045353895477017628363020568858171475465699398605521294054879723552335717371224838170,
  631021727080528545317775755519008277810897254073443531045195445000693385585285617079067461158299911725757074559060158445788334020,
  698939113216262907933000106575777182637764031455756310423445408428488415020465283160797906335499423460922834991765787100923951850,
  761064876629873014187408968978736833604499366726196921680016100403613329029764487385923318565626200870061460342150627636325837080,
  816884227900933664591578906586973258393149910974253902119364091941740793877156079106840809023315411984187085917436375176857174070,
  865934638334564469263572090671299844696635301736783068659594207745884246277730520767878869555341438640074290732965828314221801350,
  907809677718324468800899889019287460162397572803152094041463197533385225816981293239306350829895148985243127003636924741476930170,
  942162397405107091631676025460572903006205692337117558213502401697618241671517818055216400607060921226883950619376035266396958200,
  968708262533344281764646573055993510967808745353473335992066923164866939021619509169530054237940204808691001914755314057271163440,
  987227816406309485049750431099684972948770148660132219234408900657490203600316091089616375411736515633534333217461728983973257620,
  997571753790841919243372437454629231400509882684929772939944296552572129955080265216414397115006216060551201498305988395826962530]

/-- `case 34` (Util/Gauss_Legendre_Nodes_and_Weights.hpp:3006-3180), `weights`. -/
def weights34 : List Nat := [
  6229140555908684718606461071437786124527328429804845941349838376628544086793999587561453782699922740276439341043309000000000000,
  14450162748595035415202210328746990687540433584656060141734033887568915871889084946241555914043602739923176811717060000000000000,
  22563721985494970084094088714954261249034588388187833771468455800877896333373083155239447476558480796911194251855120000000000000,
  30491380638446131809442387681317591030626845389580787479912139776628195805927216671055639451067677023652018606883300000000000000,
  38166593796387516321765920289976558823947006126667351613376685590403739777358568057518258407504379384226418397741860000000000000,
  45525611523353272453822563395270602998238418996315382094622278840389030550829876689026497514447484454482015836880570000000000000,
  52507414572678106168245974842467599658719680946969865924822498827665792003293055717546872274275584276340120336012099000000000000,
  59054135827524493193960972350526190828486182346504483033111098940082612608650974721226546165098073510015365034168872000000000000,
  65111521554076411378544430064893773583637246072813191884751735136641158558069917270514061494287810957697343613153956200000000000,
  70629375814255724999038796567685355001162720490905965118486554360563929061691962821888815137673192586007774114020929820000000000,
  75561974660031931270833974228435724058819269481341462528293367074420461676358080294543297657100364818514549970112701896000000000,
  79868444339771844738818832806437993550555871972194299594900470417056603339132313255562735801756528680009926435321881038800000000,
  83513099699845655187020228046149390580715593857546691601228862147398678004277128130221460545498909019868643047907928518050000000,
  86465739747035749784246856280747580314070690901817572495022764951806839094716258021830347061732236048575380063835410215781000000,
  88701897835693869287076457364880712744283006703804130966320525040202469294764079682678306335093044794526925387109820076268900000,
  90203044370640729573942242017493928841029500050630635694986122761821105122491165578911191758931037486858147233415593870837269000,
  90956740330259873615337603948577959924605616260259440115612568069844028810383235398433513222231670682114561518819592311608775440,
  90956740330259873615337603948577959924605616260259440115612568069844028810383235398433513222231670682114561518819592311608775440,
  90203044370640729573942242017493928841029500050630635694986122761821105122491165578911191758931037486858147233415593870837269000,
  88701897835693869287076457364880712744283006703804130966320525040202469294764079682678306335093044794526925387109820076268900000,
  86465739747035749784246856280747580314070690901817572495022764951806839094716258021830347061732236048575380063835410215781000000,
  83513099699845655187020228046149390580715593857546691601228862147398678004277128130221460545498909019868643047907928518050000000,
  79868444339771844738818832806437993550555871972194299594900470417056603339132313255562735801756528680009926435321881038800000000,
  75561974660031931270833974228435724058819269481341462528293367074420461676358080294543297657100364818514549970112701896000000000,
  70629375814255724999038796567685355001162720490905965118486554360563929061691962821888815137673192586007774114020929820000000000,
  65111521554076411378544430064893773583637246072813191884751735136641158558069917270514061494287810957697343613153956200000000000,
  59054135827524493193960972350526190828486182346504483033111098940082612608650974721226546165098073510015365034168872000000000000,
  52507414572678106168245974842467599658719680946969865924822498827665792003293055717546872274275584276340120336012099000000000000,
  45525611523353272453822563395270602998238418996315382094622278840389030550829876689026497514447484454482015836880570000000000000,
  38166593796387516321765920289976558823947006126667351613376685590403739777358568057518258407504379384226418397741860000000000000,
  30491380638446131809442387681317591030626845389580787479912139776628195805927216671055639451067677023652018606883300000000000000,
  22563721985494970084094088714954261249034588388187833771468455800877896333373083155239447476558480796911194251855120000000000000,
  14450162748595035415202210328746990687540433584656060141734033887568915871889084946241555914043602739923176811717060000000000000,
  6229140555908684718606461071437786124527328429804845941349838376628544086793999587561453782699922740276439341043309000000000000]

/-- `case 35` (Util/Gauss_Legendre_Nodes_and_Weights.hpp:3182-3360), `nodes`. -/
def nodes35 : List Int := [
  -997706569099600297260163139312094725193274637171013316592297713742519108727963743288756634006227298089629166618692719994883076960,
  -987935764443851498035117089185485985313008295714174354756113957547714190473723755351584889340904392213465577414383394708294302900,
  -970437616039229833215070482584770142524881239312376607420637220050496319549181862003564582977032425911681110748535175787746784540,
  -945345148207827329538725985529974644862811251247873154111936993097783998889899075478254476231969554875367575526683780050276251240,
  -912854261359317614464937063555764230488061013625558004929792030530901126124824077988260128121055023733172963538063228370226858750,
  -873219125025222331523282349141385266644338902279374946634829451323745084561426424045066109402198168446445364678362468254004682400,
  -826749899092225406834050612748557579046890617982307341352969246392835028788235564857499451072388331514363362943134091186873897010,
  -773810252286912555267423009209887481011810072971545926343399167283446132256015127452356299637073335037113684354844360915530662140,
  -714814501556628783264408631224446746962043968521730511925391843446417799844627908122567989256008563336901238966318481835938719430,
  -650224364665890388675792808984559263369762325928374001264986923728295212756898906267061349663823804653252267592200635199753865100,
  -580545344749764509934502008189690070932070203564332433892257807210097142756466182322797193004344753130164143113423048873256281260,
  -506322773241488615024297555837327376586087938636369247531072817511913860510410773206604192621377156935642845858186251073813613900,
  -428137541517814254187620613001479858784718446488533843953971976815848294775177176608344438801652844334007340063636893616335076510,
  -346601554430813945876979834930238231808408769377292108726879885540854967203089846060527253469555691616008911262251554289261752170,
  -262352941209296057970895200455580513486304398645781283658206221603159556386112575381883526599188376490646651927975239786898643340,
  -176051061165989569974303656445059929675429712329757047410888012689542883173083972067325801203397657189785742936449785302363310320,
  -88371343275659263600929433497548803424117434765098141397250866681866122514326333865676084422366670537914965186805917891921908032,
  0,
  88371343275659263600929433497548803424117434765098141397250866681866122514326333865676084422366670537914965186805917891921908032,
  176051061165989569974303656445059929675429712329757047410888012689542883173083972067325801203397657189785742936449785302363310320,
  262352941209296057970895200455580513486304398645781283658206221603159556386112575381883526599188376490646651927975239786898643340,
  346601554430813945876979834930238231808408769377292108726879885540854967203089846060527253469555691616008911262251554289261752170,
  428137541517814254187620613001479858784718446488533843953971976815848294775177176608344438801652844334007340063636893616335076510,
  506322773241488615024297555837327376586087938636369247531072817511913860510410773206604192621377156935642845858186251073813613900,
  580545344749764509934502008189690070932070203564332433892257807210097142756466182322797193004344753130164143113423048873256281260,
  650224364665890388675792808984559263369762325928374001264986923728295212756898906267061349663823804653252267592200635199753865100,
  714814501556628783264408631224446746962043968521730511925391843446417799844627908122567989256008563336901238966318481835938719430,
  773810252286912555267423009209887481011810072971545926343399167283446132256015127452356299637073335037113684354844360915530662140,
  826749899092225406834050612748557579046890617982307341352969246392835028788235564857499451072388331514363362943134091186873897010,
  873219125025222331523282349141385266644338902279374946634829451323745084561426424045066109402198168446445364678362468254004682400,
  912854261359317614464937063555764230488061013625558004929792030530901126124824077988260128121055023733172963538063228370226858750,
  945345148207827329538725985529974644862811251247873154111936993097783998889899075478254476231969554875367575526683780050276251240,
  970437616039229833215070482584770142524881239312376607420637220050496319549181862003564582977032425911681110748535175787746784540,
  987935764443851498035117089185485985313008295714174354756113957547714190473723755351584889340904392213465577414383394708294302900,
  997706569099600297260163139312094725193274637171013316592297713742519108727963743288756634006227298089629166618692719994883076960]

/-- `case 35` (Util/Gauss_Legendre_Nodes_and_Weights.hpp:3182-3360), `weights`. -/
def weights35 : List Nat := [
  5883433420443084975753896240112624030754317798232973711684204519883189504812238664914154547225794770112237346709267000000000000,
  13650828348361492266404002920516383973994037841424920997190099882564489745331204895991366626382791506230275050311370000000000000,
  21322979911483580883437983966205078323809644719936207264898455625597194319227281727756360730704750555517921222629710000000000000,
  28829260108894254048716039714484916261527726629594999747473740842116567123202084344611218545934934933281395768083410000000000000,
  36110115863463380532716969647549938308535778969986943166786395242433205541834661989333593526309975060557332661401180000000000000,
  43108422326170218782306459374908203422806587163990208710062919080607819141403949409048427877826505900106668425680790000000000000,
  49769370401353529805199676084994958594494953194573163695730664361915413657253375618916935345035542414444764935346770000000000000,
  56040816212370128578327747165100964440348534904556345549705285115035816231177552143435468022313454267498494003363513000000000000,
  61873671966080188887014138788688652265371225804096435073404291752969486734359549193719617265753102598068806318969759400000000000,
  67222285269086903964305508748148558547093119149604808460559274951704174641582100723341666049611360002536022559868694700000000000,
  72044794772560064665461909785277756147267393027427260563296821562060925806134041447004902108666137560830236869231929420000000000,
  76303457155442053538658537884226225527080081895636534367728845196874540985532537101142045023003628118848128100965400954000000000,
  79964942242324262932662080985045756328835499430088847380436544107979165183533775969268690033263200072523393733596255919300000000,
  83000593728856588379926528216177003485174503813451119955288849687225051151269305480002255006213069911701538823948227371570000000,
  85386653392099125225943987391117567641190988283750751120531461868765411273352058762476499366523347994083004269219679731712000000,
  87104446997183534243322031605540936685056715093854931404453834221796788661605330888331299607309844435611866660943275312801870000,
  88140530430275462970738807593096641425454317274490837170571784602229167457466199755996619302850544703723874714741416286625370100,
  88486794907104290638207387777615669182409150010605423320393054756483185681845503769417762030144030388648077069978678907255512050,
  88140530430275462970738807593096641425454317274490837170571784602229167457466199755996619302850544703723874714741416286625370100,
  87104446997183534243322031605540936685056715093854931404453834221796788661605330888331299607309844435611866660943275312801870000,
  85386653392099125225943987391117567641190988283750751120531461868765411273352058762476499366523347994083004269219679731712000000,
  83000593728856588379926528216177003485174503813451119955288849687225051151269305480002255006213069911701538823948227371570000000,
  79964942242324262932662080985045756328835499430088847380436544107979165183533775969268690033263200072523393733596255919300000000,
  76303457155442053538658537884226225527080081895636534367728845196874540985532537101142045023003628118848128100965400954000000000,
  72044794772560064665461909785277756147267393027427260563296821562060925806134041447004902108666137560830236869231929420000000000,
  67222285269086903964305508748148558547093119149604808460559274951704174641582100723341666049611360002536022559868694700000000000,
  61873671966080188887014138788688652265371225804096435073404291752969486734359549193719617265753102598068806318969759400000000000,
  56040816212370128578327747165100964440348534904556345549705285115035816231177552143435468022313454267498494003363513000000000000,
  49769370401353529805199676084994958594494953194573163695730664361915413657253375618916935345035542414444764935346770000000000000,
  43108422326170218782306459374908203422806587163990208710062919080607819141403949409048427877826505900106668425680790000000000000,
  36110115863463380532716969647549938308535778969986943166786395242433205541834661989333593526309975060557332661401180000000000000,
  28829260108894254048716039714484916261527726629594999747473740842116567123202084344611218545934934933281395768083410000000000000,
  21322979911483580883437983966205078323809644719936207264898455625597194319227281727756360730704750555517921222629710000000000000,
  13650828348361492266404002920516383973994037841424920997190099882564489745331204895991366626382791506230275050311370000000000000,
  5883433420443084975753896240112624030754317798232973711684204519883189504812238664914154547225794770112237346709267000000000000]

/-- `case 36` (Util/Gauss_Legendre_Nodes_and_Weights.hpp:3362-3546), `nodes`. -/
def nodes36 : List Int := [
  -997830462484085836198828345580750238649816462396631312590541167799731360567058897459573315649661135802584301383309202958153846130,
  -988586478902212238073395107877107446607162520065287055788191527134541406915820522374838590128938739666198711468083137270784490850,
  -972027691049697949335605048431108327616046396265951740572812283883874430233554000137103024630593305989570070380666993470933277210,
  -948272984399507545202474114945227846289376525333673632550211036929420638015623440904588594998198504167032557289450294287130901550,
  -917497774515659066075867223026156399936909467813654855851993106671931357289158769326762592519996242642314414406009860104597701970,
  -879929800890397131982427337465835588773292842080756927767873598433816713144547640665276354427857403847430528568834056658255262570,
  -835847166992475306418820872498600653346779379392325144218864259548847392920134810436948757129765002981584233889883358650649964630,
  -785576230132206512827768965080292603302330505839601360648132637197556234530800177485637397604752025027083927324472058599721796520,
  -729489171593556582090260479006108985565843046905197004105831080422197956617080203376242139742789296964151711659740812796510413590,
  -668001236585521062097191344340917639164702490212637653401595864763969456081833798651465132562405312136661421317549003830809368890,
  -601567658135980535079944975073594751742954155986751909975237592026477987998607981768004813301739820026233352453582941624563699060,
  -530680285926245161640709080121569817661222872646822076475878560845794647247264039527391364397014831951355491995567340173817446420,
  -455863944433420267207217669327440925957842388296857472656179509478259430223059124160989063454299391403357950232199161774385637740,
  -377672547119689216322736389669907622166172804885287866207390670111264642531311271298489381913157611768585815674098961189977498880,
  -296684995344028270503239047745170452700241822959825326701614452773053541448050732280238582853571472856792931995819050238510351960,
  -213500892316865578943226228902713916758461731272768194550103910372085658600270806300141056462409506213227216494325705184037462930,
  -128736103809384788651993388005152301177289724599373133605902891035306123614618552050473432571649983975638157374475929768808835920,
  -43018198473708607226968978228363434554294794806009189768400180558820797003652560422635593250374816809359454664070034029511152556,
  43018198473708607226968978228363434554294794806009189768400180558820797003652560422635593250374816809359454664070034029511152556,
  128736103809384788651993388005152301177289724599373133605902891035306123614618552050473432571649983975638157374475929768808835920,
  213500892316865578943226228902713916758461731272768194550103910372085658600270806300141056462409506213227216494325705184037462930,
  296684995344028270503239047745170452700241822959825326701614452773053541448050732280238582853571472856792931995819050238510351960,
  377672547119689216322736389669907622166172804885287866207390670111264642531311271298489381913157611768585815674098961189977498880,
  455863944433420267207217669327440925957842388296857472656179509478259430223059124160989063454299391403357950232199161774385637740,
  530680285926245161640709080121569817661222872646822076475878560845794647247264039527391364397014831951355491995567340173817446420,
  601567658135980535079944975073594751742954155986751909975237592026477987998607981768004813301739820026233352453582941624563699060,
  668001236585521062097191344340917639164702490212637653401595864763969456081833798651465132562405312136661421317549003830809368890,
  729489171593556582090260479006108985565843046905197004105831080422197956617080203376242139742789296964151711659740812796510413590,
  785576230132206512827768965080292603302330505839601360648132637197556234530800177485637397604752025027083927324472058599721796520,
  835847166992475306418820872498600653346779379392325144218864259548847392920134810436948757129765002981584233889883358650649964630,
  879929800890397131982427337465835588773292842080756927767873598433816713144547640665276354427857403847430528568834056658255262570,
  917497774515659066075867223026156399936909467813654855851993106671931357289158769326762592519996242642314414406009860104597701970,
  948272984399507545202474114945227846289376525333673632550211036929420638015623440904588594998198504167032557289450294287130901550,
  972027691049697949335605048431108327616046396265951740572812283883874430233554000137103024630593305989570070380666993470933277210,
  988586478902212238073395107877107446607162520065287055788191527134541406915820522374838590128938739666198711468083137270784490850,
  997830462484085836198828345580750238649816462396631312590541167799731360567058897459573315649661135802584301383309202958153846130]

/-- `case 36` (Util/Gauss_Legendre_Nodes_and_Weights.hpp:3362-3546), `weights`. -/
def weights36 : List Nat := [
  5565719664245045361255984390547837417224591894178510176057913384514897987496502796374675017129226039295553408146060000000000000,
  12915947284065574404503411497791649191961212851479671850030392043620921429760815367884881589202286986699085398534740000000000000,
  20181515297735471532098928958221127419586510240861565250549369174012309917914253877033075398745590645335183707288500000000000000,
  27298621498568779094417180867983357990456828142050855355414144958485194405730384902084518919498262907300435065105200000000000000,
  34213810770307229921245061562714554070096911326776483529743845844498314573154797256349044640101188701114445704289400000000000000,
  40875750923644895474114545143263191547937061119078146207843293889098191647596657358438417836937263614818544796021880000000000000,
  47235083490265978416616829616674832073151787434369630264018379347917683174976247659980714497479865666448893948613820000000000000,
  53244713977759919092025628286219649688929611058942920687273767671069874621766720952005561147483996222260723556911470000000000000,
  58860144245324817309675399818920035942754095782559289245653051442757854992112755064808206444851090821926201047544560000000000000,
  64039797355015489556384798625856339746021470550840724927434743157319604176898684223546236096429089353614507701216154100000000000,
  68745323835736442613689639363613208341730764642138491229550726185656178908451741749761290165293249901909202052185930920000000000,
  72941885005653061353873376941274218286946952616990544402812414955084194068943793243563538917837940654322307182559183371000000000,
  76598410645870674528757733721501641727927556831991833782037846505329389391879579676245341052536966719140849820959407700400000000,
  79687828912071601908724665501863907327534157514726020187551670510982621763726118844350633848229148254175693268186245739080000000,
  82187266704339709517223473544942302864963072934622120980809028414243937312582700800306212962654244637490250570029243557324000000,
  84078218979661934933457624291595821203935913957606045503982371478611949008698389203666149077300923521634502034630717505280500000,
  85346685739338627491850543076489770998786585497291294128484970903369960692364358449507942249124878463878870820142263484643203000,
  85983275670394747490085174790526554160054915603495852290752070133426921925945498574093560139164786888634749917635285018337722940,
  85983275670394747490085174790526554160054915603495852290752070133426921925945498574093560139164786888634749917635285018337722940,
  85346685739338627491850543076489770998786585497291294128484970903369960692364358449507942249124878463878870820142263484643203000,
  84078218979661934933457624291595821203935913957606045503982371478611949008698389203666149077300923521634502034630717505280500000,
  82187266704339709517223473544942302864963072934622120980809028414243937312582700800306212962654244637490250570029243557324000000,
  79687828912071601908724665501863907327534157514726020187551670510982621763726118844350633848229148254175693268186245739080000000,
  76598410645870674528757733721501641727927556831991833782037846505329389391879579676245341052536966719140849820959407700400000000,
  72941885005653061353873376941274218286946952616990544402812414955084194068943793243563538917837940654322307182559183371000000000,
  68745323835736442613689639363613208341730764642138491229550726185656178908451741749761290165293249901909202052185930920000000000,
  64039797355015489556384798625856339746021470550840724927434743157319604176898684223546236096429089353614507701216154100000000000,
  58860144245324817309675399818920035942754095782559289245653051442757854992112755064808206444851090821926201047544560000000000000,
  53244713977759919092025628286219649688929611058942920687273767671069874621766720952005561147483996222260723556911470000000000000,
  47235083490265978416616829616674832073151787434369630264018379347917683174976247659980714497479865666448893948613820000000000000,
  40875750923644895474114545143263191547937061119078146207843293889098191647596657358438417836937263614818544796021880000000000000,
  34213810770307229921245061562714554070096911326776483529743845844498314573154797256349044640101188701114445704289400000000000000,
  27298621498568779094417180867983357990456828142050855355414144958485194405730384902084518919498262907300435065105200000000000000,
  20181515297735471532098928958221127419586510240861565250549369174012309917914253877033075398745590645335183707288500000000000000,
  12915947284065574404503411497791649191961212851479671850030392043620921429760815367884881589202286986699085398534740000000000000,
  5565719664245045361255984390547837417224591894178510176057913384514897987496502796374675017129226039295553408146060000000000000]

/-- `case 37` (Util/Gauss_Legendre_Nodes_and_Weights.hpp:3548-3736), `nodes`. -/
def nodes37 : List Int := [
  -997944582477913648940803074317363283669007849486729154068826774686332477775781968872765426322702982028102196082062863780528234610,
  -989185963214319186684099060584272308962452917580673980476021645554677382638067113777656125186884004714540543898848809490074250950,
  -973493030056485744328890475665759344815384616708608268359503409425254967281688057970648003726290483436370364956513374456932734320,
  -950972343262094821328576096816325933997548579804577385517560672109275404753502897340802536236993949095323947481209319640530835960,
  -921781437412463742668143686700713488781595267162329661141410508379264654418112155504854346321010648770741228422213194939948224310,
  -886124962155486078946149509016886440106813234826896307698550318042833935224361239127930786081568131280356105740869452678508041790,
  -844252987340555967987456276174860231690634495897622184119065519806780890278288478518381117214023294214079312651696544978715082830,
  -796459200509902293393046335500324523485631158940521607581883778042245380977420788396591970773889714859064832557395362027864447640,
  -743078833981965262547047417473812879089901853263012602352147083463228305168978075580412135439186051166331427672910141423832432020,
  -684486309130959357445523212431153708044343810970077687432840977602066102410856655258547728241944244667205657675527087934947524170,
  -621092608408924483148152591595057310041726400604135159223901866436147572428320230296489518301749925992010712252078705324127997980,
  -553342391861581781235098358229264473472286552240982323971999611733869284945061400256441869540418655651462743422889611411670641680,
  -481710877803205554147192868882639171989522434347350395955108936994425986544947473728333154792732120367834214560544349510637173760,
  -406700509318326110100931591613966608522471279350558899596303970484896533387314739067073199310418352163506952661170869921455334450,
  -328837429883706999498471801339940483680022575292308038022935518003892823254046423623044320698697308743419232314780688487776057120,
  -248667792791365758805567751487716218531677651682945157678516826970715306209408387296002557470156972258662886097770596520230343120,
  -166753930239851976968671730411824437466648396031276349004107998829126851288066214131533572197200927369486516315170097458834018400,
  -83670408954769901943048331736399177563521632035152293615293317645541405086318679901769894606420139256250684963815281230419267705,
  0,
  83670408954769901943048331736399177563521632035152293615293317645541405086318679901769894606420139256250684963815281230419267705,
  166753930239851976968671730411824437466648396031276349004107998829126851288066214131533572197200927369486516315170097458834018400,
  248667792791365758805567751487716218531677651682945157678516826970715306209408387296002557470156972258662886097770596520230343120,
  328837429883706999498471801339940483680022575292308038022935518003892823254046423623044320698697308743419232314780688487776057120,
  406700509318326110100931591613966608522471279350558899596303970484896533387314739067073199310418352163506952661170869921455334450,
  481710877803205554147192868882639171989522434347350395955108936994425986544947473728333154792732120367834214560544349510637173760,
  553342391861581781235098358229264473472286552240982323971999611733869284945061400256441869540418655651462743422889611411670641680,
  621092608408924483148152591595057310041726400604135159223901866436147572428320230296489518301749925992010712252078705324127997980,
  684486309130959357445523212431153708044343810970077687432840977602066102410856655258547728241944244667205657675527087934947524170,
  743078833981965262547047417473812879089901853263012602352147083463228305168978075580412135439186051166331427672910141423832432020,
  796459200509902293393046335500324523485631158940521607581883778042245380977420788396591970773889714859064832557395362027864447640,
  844252987340555967987456276174860231690634495897622184119065519806780890278288478518381117214023294214079312651696544978715082830,
  886124962155486078946149509016886440106813234826896307698550318042833935224361239127930786081568131280356105740869452678508041790,
  921781437412463742668143686700713488781595267162329661141410508379264654418112155504854346321010648770741228422213194939948224310,
  950972343262094821328576096816325933997548579804577385517560672109275404753502897340802536236993949095323947481209319640530835960,
  973493030056485744328890475665759344815384616708608268359503409425254967281688057970648003726290483436370364956513374456932734320,
  989185963214319186684099060584272308962452917580673980476021645554677382638067113777656125186884004714540543898848809490074250950,
  997944582477913648940803074317363283669007849486729154068826774686332477775781968872765426322702982028102196082062863780528234610]

/-- `case 37` (Util/Gauss_Legendre_Nodes_and_Weights.hpp:3548-3736), `weights`. -/
def weights37 : List Nat := [
  5273057279497939351722054233530389183088305906527265433763497277155632142729474372616454385993383832599648424547010000000000000,
  12238780100307556526304852436346575942290953111266082304041689029889281978088221596287422166301145931672769066905900000000000000,
  19129044489083966043501947940106174130295235746210325652246746790170811805175218307854338072774648138928319610125900000000000000,
  25886036990558933522759481362487298029484182575103270433110497251664968742419520958368570801399234096019520963415700000000000000,
  32461639847521481067234253501458728799094559122524666412552079937786207035561462371041766987349202837687481851993700000000000000,
  38809602501934544488962370328476019967389189273685400822894502461657912049874483147420168116257031506407984927439800000000000000,
  44885364662437166657410304110196360194723306514413932956799963024265996096882797148728313441644541751994276814541720000000000000,
  50646297654824601603875863086716344052705762945354109728615398455752354806429958206000604501324303390655840359346160000000000000,
  56051987998274917808539239664252666426753855287767078828835259125588968501992623888487241178058210528003944435838434000000000000,
  61064516523225986130988104500496585677994009062363104874610422420972970362730700991177735442622726551605340984350383000000000000,
  65648722872751249484023766297971218196677321149724926497400860968736134251085882878931563676198734430936949447472007900000000000,
  69772451555700344885081356793019291186023678697756087380040102707081841397704147012665037319810152858356445386133106970000000000,
  73406777248488172724626631519795464983469942197648214633221776610301384372386511141135697516305024037919546105898551296000000000,
  76526207570529237885887991206622515495363315531544051612514619883202797256659835205197446035451614743481371856697665776800000000,
  79108861837529380767212187396645238516006935064182366021750586399460060242185280988306508786509299135706589534701417613950000000,
  81136624508465030509877601799792263566460044974624938549394505872760886911647759583227619381624858982203147337388932161487100000,
  82595272236437250891230301152838470773306452602039768184325808993542199719592837179320785985481089100005236292432668165741230000,
  83474573625862787252253009484518699020435310203026050059846109756991985079347159060791009772803248334388301033680897158446780500,
  83768360993138904797017366369459391716875280068476719228071146066035214495012251924883432864183099622854571134179961916583742598,
  83474573625862787252253009484518699020435310203026050059846109756991985079347159060791009772803248334388301033680897158446780500,
  82595272236437250891230301152838470773306452602039768184325808993542199719592837179320785985481089100005236292432668165741230000,
  81136624508465030509877601799792263566460044974624938549394505872760886911647759583227619381624858982203147337388932161487100000,
  79108861837529380767212187396645238516006935064182366021750586399460060242185280988306508786509299135706589534701417613950000000,
  76526207570529237885887991206622515495363315531544051612514619883202797256659835205197446035451614743481371856697665776800000000,
  73406777248488172724626631519795464983469942197648214633221776610301384372386511141135697516305024037919546105898551296000000000,
  69772451555700344885081356793019291186023678697756087380040102707081841397704147012665037319810152858356445386133106970000000000,
  65648722872751249484023766297971218196677321149724926497400860968736134251085882878931563676198734430936949447472007900000000000,
  61064516523225986130988104500496585677994009062363104874610422420972970362730700991177735442622726551605340984350383000000000000,
  56051987998274917808539239664252666426753855287767078828835259125588968501992623888487241178058210528003944435838434000000000000,
  50646297654824601603875863086716344052705762945354109728615398455752354806429958206000604501324303390655840359346160000000000000,
  44885364662437166657410304110196360194723306514413932956799963024265996096882797148728313441644541751994276814541720000000000000,
  38809602501934544488962370328476019967389189273685400822894502461657912049874483147420168116257031506407984927439800000000000000,
  32461639847521481067234253501458728799094559122524666412552079937786207035561462371041766987349202837687481851993700000000000000,
  25886036990558933522759481362487298029484182575103270433110497251664968742419520958368570801399234096019520963415700000000000000,
  19129044489083966043501947940106174130295235746210325652246746790170811805175218307854338072774648138928319610125900000000000000,
  12238780100307556526304852436346575942290953111266082304041689029889281978088221596287422166301145931672769066905900000000000000,
  5273057279497939351722054233530389183088305906527265433763497277155632142729474372616454385993383832599648424547010000000000000]

/-- `case 38` (Util/Gauss_Legendre_Nodes_and_Weights.hpp:3738-3932), `nodes`. -/
def nodes38 : List Int := [
  -998049930535687619812847076551580997490465370274588090160744394013934859551516670088264092512608684835353265962519160422988802690,
  -989739454266385571944425891105679347324381246908022206383831499073858895649301688145813866535339126521885475781664238222984698470,
  -974846328590153507640885540946388642591975358766073515991553579521361541852209786145379363148907747587994253168631282881585060660,
  -953466330933529595670542153117441217385778970722928709744032785998659968545218453659240130233582534774898151891733479282535753980,
  -925741332048584396825109562213050911480917876481105520721136660843606038472204086062888182176985785781625875864326033397702564650,
  -891855739004632216794937031973917511579899053234515360962088901058401777331930837023820005002603340875317265231192113322089589800,
  -852035021932362188859649711247276280440385037327630968881557112438380408339225487705943448306828331756499110784931039621004847240,
  -806544167605316815551565375979698325731772981329319621205508388119545021778781496451620079536719152719872345629831360024915906150,
  -755685903753970680737738096779387413503837570746703927301686359161177408543648596923196482366885936321399267297580411027655988300,
  -699798680379184355912825840627415875638207015300590437730718952455236901201793088946578789040583192350171881301058947197691629230,
  -639254415829681707180344869500260271701170395409661428896235593234244406631228285735924213302220689142928310221708892426240194130,
  -574456021047807081132927500924472510210199597853798764607077676106217091707355628047283122313140846721192968709433914090337622590,
  -505834717927931103240533716467652002793846550637187645016220058992106627996910817251658523312621010221789379390657050884586045230,
  -433847169432376484373256162517842204005923800406839123702418954965544750175644334088622101735218145073734676149520210310112489000,
  -358972440479435013256717621456534291796062949211368073788209650522685637295011484625622869293169820223003231814965359768122469440,
  -281708809790165261360114071418700076769670508783611331800176286074382884796741631025520578321004918480233223431669898296687821410,
  -202570453892116703203977781514607057371655085753703517247666722349033903672162120496574871816144594911305911852585980393610422750,
  -122084025337867419869612381329407116568118141499300008803774551099637115198870418476519820215234519832110716672012024374130016730,
  -40785147904578239913316432329784920784773642683654811693597477825939996750069023489584061822615554912998285424673809961100535924,
  40785147904578239913316432329784920784773642683654811693597477825939996750069023489584061822615554912998285424673809961100535924,
  122084025337867419869612381329407116568118141499300008803774551099637115198870418476519820215234519832110716672012024374130016730,
  202570453892116703203977781514607057371655085753703517247666722349033903672162120496574871816144594911305911852585980393610422750,
  281708809790165261360114071418700076769670508783611331800176286074382884796741631025520578321004918480233223431669898296687821410,
  358972440479435013256717621456534291796062949211368073788209650522685637295011484625622869293169820223003231814965359768122469440,
  433847169432376484373256162517842204005923800406839123702418954965544750175644334088622101735218145073734676149520210310112489000,
  505834717927931103240533716467652002793846550637187645016220058992106627996910817251658523312621010221789379390657050884586045230,
  574456021047807081132927500924472510210199597853798764607077676106217091707355628047283122313140846721192968709433914090337622590,
  639254415829681707180344869500260271701170395409661428896235593234244406631228285735924213302220689142928310221708892426240194130,
  699798680379184355912825840627415875638207015300590437730718952455236901201793088946578789040583192350171881301058947197691629230,
  755685903753970680737738096779387413503837570746703927301686359161177408543648596923196482366885936321399267297580411027655988300,
  806544167605316815551565375979698325731772981329319621205508388119545021778781496451620079536719152719872345629831360024915906150,
  852035021932362188859649711247276280440385037327630968881557112438380408339225487705943448306828331756499110784931039621004847240,
  891855739004632216794937031973917511579899053234515360962088901058401777331930837023820005002603340875317265231192113322089589800,
  925741332048584396825109562213050911480917876481105520721136660843606038472204086062888182176985785781625875864326033397702564650,
  953466330933529595670542153117441217385778970722928709744032785998659968545218453659240130233582534774898151891733479282535753980,
  974846328590153507640885540946388642591975358766073515991553579521361541852209786145379363148907747587994253168631282881585060660,
  989739454266385571944425891105679347324381246908022206383831499073858895649301688145813866535339126521885475781664238222984698470,
  998049930535687619812847076551580997490465370274588090160744394013934859551516670088264092512608684835353265962519160422988802690]

/-- `case 38` (Util/Gauss_Legendre_Nodes_and_Weights.hpp:3738-3932), `weights`. -/
def weights38 : List Nat := [
  5002880749639345675899542091899370463839271862621705914034137653602981279227163402283231362476786316039401046535670000000000000,
  11613444716468674177668301200437427357236747860112329685010701109952837455067058578436638110235924500457704470961600000000000000,
  18156577709613236898876125754782202262912339039797122425037853788639297582362986675723399503727099665717174954531700000000000000,
  24579739738232375895201205446706287445959162227202046696035076339423217490424329561315984972546819921167305942129600000000000000,
  30839500545175054658731086313308688920411895497198518847521098314617262944210691502719576815869884524283493649333800000000000000,
  36894081594024738164940162336814950347356117240583489965969612109689874487171128645990046015729114521606250505847800000000000000,
  42703158504674434235878434358807708678417484568152144243755317082546650520937150036871176230045397589742594819942000000000000000,
  48228061860758683374352179911420224189361002785276132289968171071449761017210711929114382529838060608906662829997940000000000000,
  53432019910332319973756990631248756076915310338756085615703362434186089080943336263914313243004650337978038666697510000000000000,
  58280399146997206022305868258140055915127702158555986501969420141924931009234305289329419261449414061204811485623181000000000000,
  62740933392133054052969671525137064320903888996908758341130045033623304360526890450524386060542716274008516662038237000000000000,
  66783937979140411935046151529019259955952156035279241730476587487587304489544070172371744215090147670199288731722438700000000000,
  70382507066898954739282967593658840839261701762461206459379016251165294877159289142012279175533525603998408936219727610000000000,
  73512692584743457145206444848336478576637195092431755356502304741003723576484144549997345665193054290826289098046908278900000000,
  76153663548446396065993541104472527996345218832554518792483721407526062723224775288787996023691205824423955536888375824690000000,
  78287844658210948075375403335736262564903744857841825574751246831439595636370024389934513337308194104375234653587811238713000000,
  79901033243527821586027683925185696550301239589681578980603702653064789802806352069658576953568967727361587226387313654651600000,
  80982493770597100623269469949058141936515169784088754141566028567495647621569578586479380870497284625178844643535395317650518000,
  81525029280385786699218769885830055601642651470496798438102596981061374045526013464535609653651751832524436139972992331190467370,
  81525029280385786699218769885830055601642651470496798438102596981061374045526013464535609653651751832524436139972992331190467370,
  80982493770597100623269469949058141936515169784088754141566028567495647621569578586479380870497284625178844643535395317650518000,
  79901033243527821586027683925185696550301239589681578980603702653064789802806352069658576953568967727361587226387313654651600000,
  78287844658210948075375403335736262564903744857841825574751246831439595636370024389934513337308194104375234653587811238713000000,
  76153663548446396065993541104472527996345218832554518792483721407526062723224775288787996023691205824423955536888375824690000000,
  73512692584743457145206444848336478576637195092431755356502304741003723576484144549997345665193054290826289098046908278900000000,
  70382507066898954739282967593658840839261701762461206459379016251165294877159289142012279175533525603998408936219727610000000000,
  66783937979140411935046151529019259955952156035279241730476587487587304489544070172371744215090147670199288731722438700000000000,
  62740933392133054052969671525137064320903888996908758341130045033623304360526890450524386060542716274008516662038237000000000000,
  58280399146997206022305868258140055915127702158555986501969420141924931009234305289329419261449414061204811485623181000000000000,
  53432019910332319973756990631248756076915310338756085615703362434186089080943336263914313243004650337978038666697510000000000000,
  48228061860758683374352179911420224189361002785276132289968171071449761017210711929114382529838060608906662829997940000000000000,
  42703158504674434235878434358807708678417484568152144243755317082546650520937150036871176230045397589742594819942000000000000000,
  36894081594024738164940162336814950347356117240583489965969612109689874487171128645990046015729114521606250505847800000000000000,
  30839500545175054658731086313308688920411895497198518847521098314617262944210691502719576815869884524283493649333800000000000000,
  24579739738232375895201205446706287445959162227202046696035076339423217490424329561315984972546819921167305942129600000000000000,
  18156577709613236898876125754782202262912339039797122425037853788639297582362986675723399503727099665717174954531700000000000000,
  11613444716468674177668301200437427357236747860112329685010701109952837455067058578436638110235924500457704470961600000000000000,
  5002880749639345675899542091899370463839271862621705914034137653602981279227163402283231362476786316039401046535670000000000000]

/-- `case 39` (Util/Gauss_Legendre_Nodes_and_Weights.hpp:3934-4132), `nodes`. -/
def nodes39 : List Int := [
  -998147383066432906005472302851820441832009740049664211761217917965009212157330553757163138580143430557592090376611969356555884970,
  -990251536854685983639775117247078204709693821040191796258829419583472237624686216041939153595708040197012198998198759227217542500,
  -976098709333471053844850319889518494290747412680101702777603738631111649895887030653054394430807963985318631694562387126476541760,
  -955775212324652277110891897191082203001771790638876135830558504598246841766149127526964781308942648531007061935158693635854039120,
  -929409148486738229697816964357734561844102809507703526888272882741416161821668887453298158547711641920929583070699833141530647460,
  -897167119292992887848291090860813651065692077975623002498251428783518921178037140821008181775188654897961725860741042840637969440,
  -859252937999906153913797439126042370535084445319822060526154240531135802904479274463567496277142921438908876696243287180324218250,
  -815906297430143104353232678409629827727814060520923857359044343730043592461796225085764485879085568867392495443315668542049033300,
  -767401242931063499832272404228342945472834113459010661747651166055325322522298039661520222005371152153636622223277194996750613930,
  -714044435894534679133867036151830789664345281893698215197675447767616020019347652125343638679265320448947963132109782929126113810,
  -656173213432010910734425934976256184880107611576970430541805546777227448340893274747415345819663627031826746351176652848670446340,
  -594153454957277988692890074619106068165591544678126535370826471156574174187506644702529973406476232467007757457950231895257656080,
  -528377268660437473896343635808222505340717653485424775985290628360502651722781550704654530846353902177228036331658825457962260010,
  -459260512309136048663246633109572362938749153696017237876089938848579011054633898344382505485007843196542623598179143012697507000,
  -387240163971561455853881965636962696012576172716826615880147505195690929779907682626233071113387979020783607444404766458347497250,
  -312771559248185922535996911785628739601905609977539350264817624641002093791973748020105220064062498379874649256843102426996926180,
  -236325512461835767336006327332650448065719224794057595930349320129746076637122813426647947713423681517551981200615408335331927970,
  -158385339997837799922701061361399384466826236865143140466352759719428279459803852380346085247456315792890584712435064334395529370,
  -79443804608755477581917083192640646885003165106741933255229391674690640584320710521801165250504489547536688684626176345009945981,
  0,
  79443804608755477581917083192640646885003165106741933255229391674690640584320710521801165250504489547536688684626176345009945981,
  158385339997837799922701061361399384466826236865143140466352759719428279459803852380346085247456315792890584712435064334395529370,
  236325512461835767336006327332650448065719224794057595930349320129746076637122813426647947713423681517551981200615408335331927970,
  312771559248185922535996911785628739601905609977539350264817624641002093791973748020105220064062498379874649256843102426996926180,
  387240163971561455853881965636962696012576172716826615880147505195690929779907682626233071113387979020783607444404766458347497250,
  459260512309136048663246633109572362938749153696017237876089938848579011054633898344382505485007843196542623598179143012697507000,
  528377268660437473896343635808222505340717653485424775985290628360502651722781550704654530846353902177228036331658825457962260010,
  594153454957277988692890074619106068165591544678126535370826471156574174187506644702529973406476232467007757457950231895257656080,
  656173213432010910734425934976256184880107611576970430541805546777227448340893274747415345819663627031826746351176652848670446340,
  714044435894534679133867036151830789664345281893698215197675447767616020019347652125343638679265320448947963132109782929126113810,
  767401242931063499832272404228342945472834113459010661747651166055325322522298039661520222005371152153636622223277194996750613930,
  815906297430143104353232678409629827727814060520923857359044343730043592461796225085764485879085568867392495443315668542049033300,
  859252937999906153913797439126042370535084445319822060526154240531135802904479274463567496277142921438908876696243287180324218250,
  897167119292992887848291090860813651065692077975623002498251428783518921178037140821008181775188654897961725860741042840637969440,
  929409148486738229697816964357734561844102809507703526888272882741416161821668887453298158547711641920929583070699833141530647460,
  955775212324652277110891897191082203001771790638876135830558504598246841766149127526964781308942648531007061935158693635854039120,
  976098709333471053844850319889518494290747412680101702777603738631111649895887030653054394430807963985318631694562387126476541760,
  990251536854685983639775117247078204709693821040191796258829419583472237624686216041939153595708040197012198998198759227217542500,
  998147383066432906005472302851820441832009740049664211761217917965009212157330553757163138580143430557592090376611969356555884970]

/-- `case 39` (Util/Gauss_Legendre_Nodes_and_Weights.hpp:3934-4132), `weights`. -/
def weights39 : List Nat := [
  4752944691635101370776213154906941985695084541837061439659028812961195209072353816958066864215143542078136722123300000000000000,
  11034788939164594242676805452177289453507139373118155939367997649606561111082756264956817260046605677202850296964100000000000000,
  17256229093724919040805471183355047213715901890462315361193289118440398772392132142875755204033008992042089133344000000000000000,
  23369384832178164594712344442924698891197555463756665894353191003490921776642987989990506479218414471664977027905000000000000000,
  29334955983903378592155986356251425611411467101604565309192710005216660520021525076353486547908964246731058765894000000000000000,
  35115111498131330761065185297232816366661487619726685626353708129619676313136134018975010568469035588742336853715000000000000000,
  40673276847933843939056556082261403687572435996062904776449282498303105580153403151849824918268075269083270314269200000000000000,
  45974301108916631884176639399232780598861693033999463916597342205386042660887398865819271947923068651255857061858200000000000000,
  50984665292129405214021033676581335017613083881284905295127581692009953551470170317654692521080136274605320284217850000000000000,
  55672690340916299907391139789681482706960948073580068434292276574951186335267810988317777798567688951086143173299940000000000000,
  60008736088596149574941773548819499736678227091846304341366081581756972751438509340888229092174502667513991524504641000000000000,
  63965388138682388986706404410063644855776916889979879730165700516936051822120217945728275474170252399087314642040566500000000000,
  67517630966231265363021328046448593775152708083477035808255685885939865828014159902954164915075722074477839904465954380000000000,
  70643005970608760770114931528131136467429684159028169270598387713593521644780965544344635653685406657352149781145756577000000000,
  73321753414268617381153932865048306447893424250975130779642040180072543984788397296605225043351061519911905246108307671600000000,
  75536937322836057704784446990809399094187978590021844338828588842039572940103431200569623321888446861052965377395835016680000000,
  77274552544682016728511636733117299120495251488791150936829084023329306854067661707086022580640275153099330332360290097441800000,
  78523613287371176725063300985523471522581476409248860946581451307907229738956210788218527774503568405760190416620498884423460000,
  79276222568368471010155771754507930523804148678266424700204187340834088052415840773472864122919874452807170999179085634796174000,
  79527622139442852417418196605850993845606774765864814309884769835210289106375865732762443823721496288890204285178083502660699745,
  79276222568368471010155771754507930523804148678266424700204187340834088052415840773472864122919874452807170999179085634796174000,
  78523613287371176725063300985523471522581476409248860946581451307907229738956210788218527774503568405760190416620498884423460000,
  77274552544682016728511636733117299120495251488791150936829084023329306854067661707086022580640275153099330332360290097441800000,
  75536937322836057704784446990809399094187978590021844338828588842039572940103431200569623321888446861052965377395835016680000000,
  73321753414268617381153932865048306447893424250975130779642040180072543984788397296605225043351061519911905246108307671600000000,
  70643005970608760770114931528131136467429684159028169270598387713593521644780965544344635653685406657352149781145756577000000000,
  67517630966231265363021328046448593775152708083477035808255685885939865828014159902954164915075722074477839904465954380000000000,
  63965388138682388986706404410063644855776916889979879730165700516936051822120217945728275474170252399087314642040566500000000000,
  60008736088596149574941773548819499736678227091846304341366081581756972751438509340888229092174502667513991524504641000000000000,
  55672690340916299907391139789681482706960948073580068434292276574951186335267810988317777798567688951086143173299940000000000000,
  50984665292129405214021033676581335017613083881284905295127581692009953551470170317654692521080136274605320284217850000000000000,
  45974301108916631884176639399232780598861693033999463916597342205386042660887398865819271947923068651255857061858200000000000000,
  40673276847933843939056556082261403687572435996062904776449282498303105580153403151849824918268075269083270314269200000000000000,
  35115111498131330761065185297232816366661487619726685626353708129619676313136134018975010568469035588742336853715000000000000000,
  29334955983903378592155986356251425611411467101604565309192710005216660520021525076353486547908964246731058765894000000000000000,
  23369384832178164594712344442924698891197555463756665894353191003490921776642987989990506479218414471664977027905000000000000000,
  17256229093724919040805471183355047213715901890462315361193289118440398772392132142875755204033008992042089133344000000000000000,
  11034788939164594242676805452177289453507139373118155939367997649606561111082756264956817260046605677202850296964100000000000000,
  4752944691635101370776213154906941985695084541837061439659028812961195209072353816958066864215143542078136722123300000000000000]

/-- `case 40` (Util/Gauss_Legendre_Nodes_and_Weights.hpp:4134-4338), `nodes`. -/
def nodes40 : List Int := [
  -998237709710559200349622702420586492335770381595045906603336117096838863019727805077886187731208284346697196268812609614867897550,
  -990726238699457006453054352221372154962222081351086537883076244304078903238544596629110505982502167809849568276059733621197154640,
  -977259949983774262663370283712903806978667932037986096429262016011063214444214457187689300888729858672306343072529015309013060030,
  -957916819213791655804540999452759285094883490602747031569053843581758355623483729320420611635637021041961630247973454474903290160,
  -932812808278676533360852166845205716434753575282692449229343015415640523923346229533854687341784546222366455034924429750064493010,
  -902098806968874296728253330868493103584488081057669467725260111540370181400984707395893987734080598202652292328223555222659452100,
  -865959503212259503820781808354619963570546553011101649459940254806682078847082555300916562216919466315420335006640220649168030310,
  -824612230833311663196320230666098773907240384242987799691790963152807171842695724432449525032099784042152298938557306424918095630,
  -778305651426519387694971545506494848020691316126891794245342060629311941916180571441200091645595410095183005379523324750769864200,
  -727318255189927103280996451754930548557378673533328137547551244185929114646088472607541106024961037177437172068325115132068030800,
  -671956684614179548379354514961494109970325981383851150071092968986662475956619765946031944941424748414369366484664024941043396760,
  -612553889667980237952612450230694877380123781683149611135347562530190972424438235220121959619430108568829627665750795535456485920,
  -549467125095128202075931305529517970233975101595651464902565471721855745113483590471763292245634463284681561841777109799992246390,
  -483075801686178712908566574244823004599022395533114100789335243225943442741906859245875104821157478607118821209170330466287509890,
  -413779204371605001524879745803713682974099624052918238294402251068642663609220731437836058871487873576582812743219982812960854550,
  -341994090825758473007492481179194310066953620027325796463409584098143708942120883323195466648000265009718351254931603355454809370,
  -268152185007253681141184344808596183424804373236246981457259974873821193193734224352190375198530482105503115758480662877000537940,
  -192697580701371099715516852065149894814092021105208874885467592236502721663643411549924620742601518556311212096152533650407745880,
  -116084070675255208483451284408024113768728530854215949030297432161579163947867173515377113461093842779736802068271002739646182900,
  -38772417506050821933193444024623294679364634383141599168637181438006575000920756208604273806351484390074072093683407945397332078,
  38772417506050821933193444024623294679364634383141599168637181438006575000920756208604273806351484390074072093683407945397332078,
  116084070675255208483451284408024113768728530854215949030297432161579163947867173515377113461093842779736802068271002739646182900,
  192697580701371099715516852065149894814092021105208874885467592236502721663643411549924620742601518556311212096152533650407745880,
  268152185007253681141184344808596183424804373236246981457259974873821193193734224352190375198530482105503115758480662877000537940,
  341994090825758473007492481179194310066953620027325796463409584098143708942120883323195466648000265009718351254931603355454809370,
  413779204371605001524879745803713682974099624052918238294402251068642663609220731437836058871487873576582812743219982812960854550,
  483075801686178712908566574244823004599022395533114100789335243225943442741906859245875104821157478607118821209170330466287509890,
  549467125095128202075931305529517970233975101595651464902565471721855745113483590471763292245634463284681561841777109799992246390,
  612553889667980237952612450230694877380123781683149611135347562530190972424438235220121959619430108568829627665750795535456485920,
  671956684614179548379354514961494109970325981383851150071092968986662475956619765946031944941424748414369366484664024941043396760,
  727318255189927103280996451754930548557378673533328137547551244185929114646088472607541106024961037177437172068325115132068030800,
  778305651426519387694971545506494848020691316126891794245342060629311941916180571441200091645595410095183005379523324750769864200,
  824612230833311663196320230666098773907240384242987799691790963152807171842695724432449525032099784042152298938557306424918095630,
  865959503212259503820781808354619963570546553011101649459940254806682078847082555300916562216919466315420335006640220649168030310,
  902098806968874296728253330868493103584488081057669467725260111540370181400984707395893987734080598202652292328223555222659452100,
  932812808278676533360852166845205716434753575282692449229343015415640523923346229533854687341784546222366455034924429750064493010,
  957916819213791655804540999452759285094883490602747031569053843581758355623483729320420611635637021041961630247973454474903290160,
  977259949983774262663370283712903806978667932037986096429262016011063214444214457187689300888729858672306343072529015309013060030,
  990726238699457006453054352221372154962222081351086537883076244304078903238544596629110505982502167809849568276059733621197154640,
  998237709710559200349622702420586492335770381595045906603336117096838863019727805077886187731208284346697196268812609614867897550]

/-- `case 40` (Util/Gauss_Legendre_Nodes_and_Weights.hpp:4134-4338), `weights`. -/
def weights40 : List Nat := [
  4521277098533191258471732878185332727831110199705990700341942342663947001948225131287635827890030939506746956476200000000000000,
  10498284531152813614742171067279652376792621315796779715675123611625298896910830700536830474032244145870976760388000000000000000,
  16421058381907888712863484882363927292342293346957761971903915513590439301210273668655372262383883509067408481366000000000000000,
  22245849194166957261504324184208573207033196679354427880734240005691311520157974994248214519313199037974576610655000000000000000,
  27937006980023401098489157507721077302550862050766398448085916450374899481690939441708348209064157236444922113106000000000000000,
  33460195282547847392678183086410848977241786653764350413191176699052399771265152264300212607094211591777413814937000000000000000,
  38782167974472017639972031290446162253459211232025857837266888919538730143690753816110799685422723421576059853607000000000000000,
  43870908185673271991674686041715495811006837170236889758525908649801785805917922288962207695539511342234804943942000000000000000,
  48695807635072232061434160448146388067843027377119775140646051275178428417480875020812812219596193252129470095143800000000000000,
  53227846983936824354996479772260504555321171822006450764360880526520815021871074792445030940654266175157470236815290000000000000,
  57439769099391551366617730910425985600104835854453626506681266925548361711390016753856762815373486843407056297534311000000000000,
  61306242492928939166537996408398595902593763511174321986897638686868155823117459368929499821076143251654792324869766000000000000,
  64804013456601038074554529566752730032692964208488906363195244271283972925685626033023267349596976112458391420113622400000000000,
  67912045815233903825690108231923985984197238379285954717896203593040781626879373683027018896720619350365901771917155640000000000,
  70611647391286779695483630855286832359559103995586097310684268962663697311948477754600136041595785011583985417622767544000000000,
  72886582395804059060510683442517835857559080985798630476254816832990555730743402189708781749947401015071156697390074100630000000,
  74723169057968264200189336261324673191202934420359821731340891417653403032723555439148306009035706112365176350482822227078000000,
  76110361900626242371558075922494823012559553845071107054182459029299240635832583085309625728865229072238106750798145351965300000,
  77039818164247965588307534283810248524439754163940415489180892432541643090464437200508388732260836290371981048258146458442575000,
  77505947978424811263723962958326326963668652788106435732954273854072132749071046372820748414537396288743602054576173892129151490,
  77505947978424811263723962958326326963668652788106435732954273854072132749071046372820748414537396288743602054576173892129151490,
  77039818164247965588307534283810248524439754163940415489180892432541643090464437200508388732260836290371981048258146458442575000,
  76110361900626242371558075922494823012559553845071107054182459029299240635832583085309625728865229072238106750798145351965300000,
  74723169057968264200189336261324673191202934420359821731340891417653403032723555439148306009035706112365176350482822227078000000,
  72886582395804059060510683442517835857559080985798630476254816832990555730743402189708781749947401015071156697390074100630000000,
  70611647391286779695483630855286832359559103995586097310684268962663697311948477754600136041595785011583985417622767544000000000,
  67912045815233903825690108231923985984197238379285954717896203593040781626879373683027018896720619350365901771917155640000000000,
  64804013456601038074554529566752730032692964208488906363195244271283972925685626033023267349596976112458391420113622400000000000,
  61306242492928939166537996408398595902593763511174321986897638686868155823117459368929499821076143251654792324869766000000000000,
  57439769099391551366617730910425985600104835854453626506681266925548361711390016753856762815373486843407056297534311000000000000,
  53227846983936824354996479772260504555321171822006450764360880526520815021871074792445030940654266175157470236815290000000000000,
  48695807635072232061434160448146388067843027377119775140646051275178428417480875020812812219596193252129470095143800000000000000,
  43870908185673271991674686041715495811006837170236889758525908649801785805917922288962207695539511342234804943942000000000000000,
  38782167974472017639972031290446162253459211232025857837266888919538730143690753816110799685422723421576059853607000000000000000,
  33460195282547847392678183086410848977241786653764350413191176699052399771265152264300212607094211591777413814937000000000000000,
  27937006980023401098489157507721077302550862050766398448085916450374899481690939441708348209064157236444922113106000000000000000,
  22245849194166957261504324184208573207033196679354427880734240005691311520157974994248214519313199037974576610655000000000000000,
  16421058381907888712863484882363927292342293346957761971903915513590439301210273668655372262383883509067408481366000000000000000,
  10498284531152813614742171067279652376792621315796779715675123611625298896910830700536830474032244145870976760388000000000000000,
  4521277098533191258471732878185332727831110199705990700341942342663947001948225131287635827890030939506746956476200000000000000]

/-- `case 41` (Util/Gauss_Legendre_Nodes_and_Weights.hpp:4340-4548), `nodes`. -/
def nodes41 : List Int := [
  -998321588574771441519188508088377567931504351513670166430518999508243529245598106903453979060556382575013185526503370808898161890,
  -991167109699016308250158894573169657692756013570003047313923375875298465212290381380415928231038246479139372018258377331694584600,
  -978338673561083384469170706673967198375636781918654282390863851911997900900827053305098484469753817871619680497407126759036577730,
  -959906891730346226099441696068686582066951090829466350657274174630818499843739719983982452018862827264274426644730491696056684350,
  -935976987497853825682318275284766266271237118087344774557194300083162382718063119494622441508306722233857799973244582594488016790,
  -906685944758101172958340413230722973354307185322284854417417833806959452154420716053671154970354654748896976868260372538557940740,
  -872201511692441408833670574234329460282042655539533001847521671818354306485446948393100729688252359021295242402790537530090415880,
  -832721200401361331244272779048543799976975992978582133304175570920702660543261582360361712936432068667637440200235862392817658410,
  -788471145047409372736221781466770288994712079098727210377686462054901225762550617650619851086063869746051366704479185508477043780,
  -739704803069926181060168744468559000395254439052568965476446358330298517634005339122876861229243881394956198031251771014289610790,
  -686701502034951289584603856529134812066438460149673128786944269237383079435070616824352482369944993126108213285727117731148391380,
  -629764839072196320488649091695103501078514780739470873876567546255537739680748371216286521439160717680049560896745475531484767340,
  -569220941610215869654747215282980251610456923979545243835517045323906142148847026333528310891270674630559542916541375248974719240,
  -505416599199406032708336070202694764951075546015180245668324090049379447870194735815115916902026502019879503979088759686553763860,
  -438717277051407088517119856728039248421785758759468643361571427607034336508998265580951846257642412979833003730164287138225915820,
  -369505022640481441428366913299935205624086971331876078751204888337787000999255780649231679659794831023044729240821431824419274200,
  -298176277341824865922982880478924304139955868446148526074545741222712918916658002374740330139707213202992026660465515347005023580,
  -225139605633422775605786256655472330299912420644243222350187854527011577211255177234944992225493946149002362174037755852654234780,
  -150813354863992163574377967884582375775630945329497830965169441990446658054919701897533718736291479097998281400220372600634561400,
  -75623258989162996923766193651200267481050635606656948750103817094359167922230392152340208325961075549670377213751772017164192108,
  0,
  75623258989162996923766193651200267481050635606656948750103817094359167922230392152340208325961075549670377213751772017164192108,
  150813354863992163574377967884582375775630945329497830965169441990446658054919701897533718736291479097998281400220372600634561400,
  225139605633422775605786256655472330299912420644243222350187854527011577211255177234944992225493946149002362174037755852654234780,
  298176277341824865922982880478924304139955868446148526074545741222712918916658002374740330139707213202992026660465515347005023580,
  369505022640481441428366913299935205624086971331876078751204888337787000999255780649231679659794831023044729240821431824419274200,
  438717277051407088517119856728039248421785758759468643361571427607034336508998265580951846257642412979833003730164287138225915820,
  505416599199406032708336070202694764951075546015180245668324090049379447870194735815115916902026502019879503979088759686553763860,
  569220941610215869654747215282980251610456923979545243835517045323906142148847026333528310891270674630559542916541375248974719240,
  629764839072196320488649091695103501078514780739470873876567546255537739680748371216286521439160717680049560896745475531484767340,
  686701502034951289584603856529134812066438460149673128786944269237383079435070616824352482369944993126108213285727117731148391380,
  739704803069926181060168744468559000395254439052568965476446358330298517634005339122876861229243881394956198031251771014289610790,
  788471145047409372736221781466770288994712079098727210377686462054901225762550617650619851086063869746051366704479185508477043780,
  832721200401361331244272779048543799976975992978582133304175570920702660543261582360361712936432068667637440200235862392817658410,
  872201511692441408833670574234329460282042655539533001847521671818354306485446948393100729688252359021295242402790537530090415880,
  906685944758101172958340413230722973354307185322284854417417833806959452154420716053671154970354654748896976868260372538557940740,
  935976987497853825682318275284766266271237118087344774557194300083162382718063119494622441508306722233857799973244582594488016790,
  959906891730346226099441696068686582066951090829466350657274174630818499843739719983982452018862827264274426644730491696056684350,
  978338673561083384469170706673967198375636781918654282390863851911997900900827053305098484469753817871619680497407126759036577730,
  991167109699016308250158894573169657692756013570003047313923375875298465212290381380415928231038246479139372018258377331694584600,
  998321588574771441519188508088377567931504351513670166430518999508243529245598106903453979060556382575013185526503370808898161890]

/-- `case 41` (Util/Gauss_Legendre_Nodes_and_Weights.hpp:4340-4548), `weights`. -/
def weights41 : List Nat := [
  4306140358164887684004477904654486186362203995301704821670924713880213361558403697741362180959395302525294673967800000000000000,
  9999938773905945338496296629698839550224935771150205951661212191055021944662486990875781317038927810957484791608000000000000000,
  15644938407818588530826844479533677440817889369646356351972042972473224286131661804693445838414990848066426525410000000000000000,
  21201063368779553075697033493376626571717054327358308185836520844835049555158405620574297304437233798843195622280000000000000000,
  26635899207110445467548575258713277044690492005248138029060150075915322621792624496914289498622210492884954151460000000000000000,
  31918211731699281787066946857145543701187753297511012565575276100681536872246474121011693106806539451919202481799000000000000000,
  37017716703507988435261251580160668606271546321867542779227435551906481858436164463233102849910340548689612193865000000000000000,
  41905195195909689429340274311048837936266377432022383252550317080899790546363628921049140648145183904495170096736000000000000000,
  46552648369014342060756586864611423130990198580590185020549110736761859548429556980329294556562587187294323128838300000000000000,
  50933454294617494781170357115688631420803446786870328775815474252508549099159726051409904029836210267984794497134100000000000000,
  55022519242578741880146810171422269973775336605369590502057907877400277284465903852283742901293180227024603127552520000000000000,
  58796420949871944991185853380734274000881238602726940865231712723069983377722073071299807977717786307744741494334611000000000000,
  62233542580966316471573417083346485430159869944943429373172765106943744880521897953127062691330490005122255132987803700000000000,
  65314196453527410436163712653796340419859236721068126341371610438878270671829474360349881147696236357176634423430400700000000000,
  68020736760876766735533239726248928256699120138594165449392247149732944928092044352033734832945196563942984588628713966000000000,
  70337660620817497481658989969881456001233380167810279724334023041915542146241143191612387603652414896868366623935120955900000000,
  72251696861023073396346398348787354885294770524872548898428380271764762439815042014826616000021984713444405889229672656130000000,
  73751882027223469939280818324848679477916280428339642738014179844026880014757103101047603730163120803492995281476444948567600000,
  74829623176221551891305072633505322945683067378030717578069244167587823825024787484920833937152392286157769487386071501499790000,
  75478747092715824027247062674616749073606360903062776229734737987942238117067487544306734647426120146178489875905349815055832400,
  75695535647298372318779961076360255891118881395231233132549453739640965241047819852718566399734916158372591824083839145899535747,
  75478747092715824027247062674616749073606360903062776229734737987942238117067487544306734647426120146178489875905349815055832400,
  74829623176221551891305072633505322945683067378030717578069244167587823825024787484920833937152392286157769487386071501499790000,
  73751882027223469939280818324848679477916280428339642738014179844026880014757103101047603730163120803492995281476444948567600000,
  72251696861023073396346398348787354885294770524872548898428380271764762439815042014826616000021984713444405889229672656130000000,
  70337660620817497481658989969881456001233380167810279724334023041915542146241143191612387603652414896868366623935120955900000000,
  68020736760876766735533239726248928256699120138594165449392247149732944928092044352033734832945196563942984588628713966000000000,
  65314196453527410436163712653796340419859236721068126341371610438878270671829474360349881147696236357176634423430400700000000000,
  62233542580966316471573417083346485430159869944943429373172765106943744880521897953127062691330490005122255132987803700000000000,
  58796420949871944991185853380734274000881238602726940865231712723069983377722073071299807977717786307744741494334611000000000000,
  55022519242578741880146810171422269973775336605369590502057907877400277284465903852283742901293180227024603127552520000000000000,
  50933454294617494781170357115688631420803446786870328775815474252508549099159726051409904029836210267984794497134100000000000000,
  46552648369014342060756586864611423130990198580590185020549110736761859548429556980329294556562587187294323128838300000000000000,
  41905195195909689429340274311048837936266377432022383252550317080899790546363628921049140648145183904495170096736000000000000000,
  37017716703507988435261251580160668606271546321867542779227435551906481858436164463233102849910340548689612193865000000000000000,
  31918211731699281787066946857145543701187753297511012565575276100681536872246474121011693106806539451919202481799000000000000000,
  26635899207110445467548575258713277044690492005248138029060150075915322621792624496914289498622210492884954151460000000000000000,
  21201063368779553075697033493376626571717054327358308185836520844835049555158405620574297304437233798843195622280000000000000000,
  15644938407818588530826844479533677440817889369646356351972042972473224286131661804693445838414990848066426525410000000000000000,
  9999938773905945338496296629698839550224935771150205951661212191055021944662486990875781317038927810957484791608000000000000000,
  4306140358164887684004477904654486186362203995301704821670924713880213361558403697741362180959395302525294673967800000000000000]

/-- `case 42` (Util/Gauss_Legendre_Nodes_and_Weights.hpp:4550-4764), `nodes`. -/
def nodes42 : List Int := [
  -998399618990062415022868126847050276177876083522781251764855502545101688045853643722560212067018993420434000605821779987632386670,
  -991577288340860919792361253280868833452693264737104017576879048131644731496055703313765625063590256781045436778495086483323922450,
  -979342508063748193708982566542856095586474980129062928615509269975504392382826306454629548673443420737849096089683024818610418410,
  -961759365338204488746927157853322681171721288914031998978629706016630563163584035098638870206887635986350146884158537267496607040,
  -938923557354988178533173433625591970251387818450171870841803449420009092262096255532260762163728713421004639539422334127541310170,
  -910959724904127452583847879208506542318900351339455603878448133693150122656862139542159153792535505815911373257407336257321598380,
  -878020569812172742711985103478623534062819716243918598755861270323504196753206416994566249210374113272545305131670897232009232360,
  -840285983261816900925439995086099817823398575193568356805107277729581760391201728007343056913242219663340802551602604831761888870,
  -797962053255487413232705952546376660132375511290654134058099938516414961142183369782885177697962942385854903394020785147216065300,
  -751279935689480489568472175914658655502564519829540924853931230736179128742561297190493527726012283197085175249966641830709642920,
  -700494590556171213741569929055465534300175941800093181127569280382645726185296790039840964708989083878617286852350523691243610590,
  -645883388869247833957496303718411701169086543840143864684726218354186537482993052590285880635082651458352798938545483765812739740,
  -587744597485109322840711345473995719905431304828001645898256270221869785764298515733993981964129168204341481703019994129053772630,
  -526395749931192287592867558791901461435739764929909928928432351178652842330866077315614887019879841709646179524781322884365270730,
  -462171912070421929759075029930635985109664908473608631092830362139754138632298972957390709572392977569480220524714768285304195800,
  -395423852042975057677093954594371980799178576486353488261975510438233475217681747338021885475284347854164024698220613340065266670,
  -326516124465411512197156589375465669058411470498584523938196633813436213933200022975621297227329758473242221729490235353037052980,
  -255825079342879083966414791018708448768766456465400954660698166707647975490594038780940321835608649138863523973002260402810181420,
  -183736806564854550852755639380742940933323961622515100354411571353211973711520588466668834612004068358748551550243409951390598240,
  -110645027208519868349122545002641004867344024483630807403476144880063308832870825292540690934853647097539404781049379560793398300,
  -36948943165351775813095980037559426641708452249222531349645010606524170696083857530217773875697544219694960358827157795471132564,
  36948943165351775813095980037559426641708452249222531349645010606524170696083857530217773875697544219694960358827157795471132564,
  110645027208519868349122545002641004867344024483630807403476144880063308832870825292540690934853647097539404781049379560793398300,
  183736806564854550852755639380742940933323961622515100354411571353211973711520588466668834612004068358748551550243409951390598240,
  255825079342879083966414791018708448768766456465400954660698166707647975490594038780940321835608649138863523973002260402810181420,
  326516124465411512197156589375465669058411470498584523938196633813436213933200022975621297227329758473242221729490235353037052980,
  395423852042975057677093954594371980799178576486353488261975510438233475217681747338021885475284347854164024698220613340065266670,
  462171912070421929759075029930635985109664908473608631092830362139754138632298972957390709572392977569480220524714768285304195800,
  526395749931192287592867558791901461435739764929909928928432351178652842330866077315614887019879841709646179524781322884365270730,
  587744597485109322840711345473995719905431304828001645898256270221869785764298515733993981964129168204341481703019994129053772630,
  645883388869247833957496303718411701169086543840143864684726218354186537482993052590285880635082651458352798938545483765812739740,
  700494590556171213741569929055465534300175941800093181127569280382645726185296790039840964708989083878617286852350523691243610590,
  751279935689480489568472175914658655502564519829540924853931230736179128742561297190493527726012283197085175249966641830709642920,
  797962053255487413232705952546376660132375511290654134058099938516414961142183369782885177697962942385854903394020785147216065300,
  840285983261816900925439995086099817823398575193568356805107277729581760391201728007343056913242219663340802551602604831761888870,
  878020569812172742711985103478623534062819716243918598755861270323504196753206416994566249210374113272545305131670897232009232360,
  910959724904127452583847879208506542318900351339455603878448133693150122656862139542159153792535505815911373257407336257321598380,
  938923557354988178533173433625591970251387818450171870841803449420009092262096255532260762163728713421004639539422334127541310170,
  961759365338204488746927157853322681171721288914031998978629706016630563163584035098638870206887635986350146884158537267496607040,
  979342508063748193708982566542856095586474980129062928615509269975504392382826306454629548673443420737849096089683024818610418410,
  991577288340860919792361253280868833452693264737104017576879048131644731496055703313765625063590256781045436778495086483323922450,
  998399618990062415022868126847050276177876083522781251764855502545101688045853643722560212067018993420434000605821779987632386670]

/-- `case 42` (Util/Gauss_Legendre_Nodes_and_Weights.hpp:4550-4764), `weights`. -/
def weights42 : List Nat := [
  4105998604649084610602779496835962657016773374802290357852127042839148777673144204339628263043739701980584327316000000000000000,
  9536220301748502411820100292697998188684798735012572511865203642803189930718970304947856869621337147946030979420000000000000000,
  14922443697357494144677678105865767620092747490107896594657334470111901726432204659391016053401320742554133138160000000000000000,
  20227869569052644757055719079354185082671426552422096211653580926741438651225429158363161943781322735414861088110000000000000000,
  25422959526113047886742442909430864386135410373978954861181896907453595305917476195421512028005787568215156560750000000000000000,
  30479240699603468362904733523392397791769654244400894823643916414984589318706232541091942647887836560992429025400000000000000000,
  35369071097592110832662181126507541905748521780641450072832203720139703604181257708449902503821817044850729162484000000000000000,
  40065735180692261760596124830036934553733701865745615099227199782026889625813254087118609309518739897908239982658000000000000000,
  44543577771965877874316365985234241318595466037127581245260163675704775674594315385692035923895531424704683127380000000000000000,
  48778140792803245027449363128402723921117696934226903031012236525264483146588350860430665302872595725378230161470300000000000000,
  52746295699174070343942539044097477031565987827186119621740472599842343489861601588667345387632750968030246075412750000000000000,
  56426369358018381646426855139695689398873158576288507422880883454782458881046970797194888953271793944813460969273740000000000000,
  59798262227586654312831545753534851509853418695943909453233008365536336705836011173309755241173326924746758688559508000000000000,
  62843558045002576409318251323779889152797043921889738718786971437951947367760388212749252591663185236457628288170333800000000000,
  65545624364908978927005107851794425609782294085793082331648289466894493024890705474521351540508612270944853412649105580000000000,
  67889703376521944855363402213766307266134734658593197869898712326181321658944495080652560872385771496321461758200485451000000000,
  69862992492594159766154786381482204443927313047432093707531057127778178885680271606008322612713837698287063032320188531890000000,
  71454714265170982921810444117462155022589863877503718632640464148037099128101102213488992758690640883405318816033174470595000000,
  72656175243804104887905761492533031276783683968427229995730473875511251597098379381702403345305028438019211875426188476102900000,
  73460813453467528264028257054303938733655783450405239362752101300684363045281734613103388893146908122069883495241856323835372000,
  73864234232172879996385561149791413128470520502070908073971702788730490453647704753355406957658115466959036035563146688326591770,
  73864234232172879996385561149791413128470520502070908073971702788730490453647704753355406957658115466959036035563146688326591770,
  73460813453467528264028257054303938733655783450405239362752101300684363045281734613103388893146908122069883495241856323835372000,
  72656175243804104887905761492533031276783683968427229995730473875511251597098379381702403345305028438019211875426188476102900000,
  71454714265170982921810444117462155022589863877503718632640464148037099128101102213488992758690640883405318816033174470595000000,
  69862992492594159766154786381482204443927313047432093707531057127778178885680271606008322612713837698287063032320188531890000000,
  67889703376521944855363402213766307266134734658593197869898712326181321658944495080652560872385771496321461758200485451000000000,
  65545624364908978927005107851794425609782294085793082331648289466894493024890705474521351540508612270944853412649105580000000000,
  62843558045002576409318251323779889152797043921889738718786971437951947367760388212749252591663185236457628288170333800000000000,
  59798262227586654312831545753534851509853418695943909453233008365536336705836011173309755241173326924746758688559508000000000000,
  56426369358018381646426855139695689398873158576288507422880883454782458881046970797194888953271793944813460969273740000000000000,
  52746295699174070343942539044097477031565987827186119621740472599842343489861601588667345387632750968030246075412750000000000000,
  48778140792803245027449363128402723921117696934226903031012236525264483146588350860430665302872595725378230161470300000000000000,
  44543577771965877874316365985234241318595466037127581245260163675704775674594315385692035923895531424704683127380000000000000000,
  40065735180692261760596124830036934553733701865745615099227199782026889625813254087118609309518739897908239982658000000000000000,
  35369071097592110832662181126507541905748521780641450072832203720139703604181257708449902503821817044850729162484000000000000000,
  30479240699603468362904733523392397791769654244400894823643916414984589318706232541091942647887836560992429025400000000000000000,
  25422959526113047886742442909430864386135410373978954861181896907453595305917476195421512028005787568215156560750000000000000000,
  20227869569052644757055719079354185082671426552422096211653580926741438651225429158363161943781322735414861088110000000000000000,
  14922443697357494144677678105865767620092747490107896594657334470111901726432204659391016053401320742554133138160000000000000000,
  9536220301748502411820100292697998188684798735012572511865203642803189930718970304947856869621337147946030979420000000000000000,
  4105998604649084610602779496835962657016773374802290357852127042839148777673144204339628263043739701980584327316000000000000000]

/-- `case 43` (Util/Gauss_Legendre_Nodes_and_Weights.hpp:4766-4984), `nodes`. -/
def nodes43 : List Int := [
  -998472332242507713517636187318392411962050717847609143293083436783380329030546865635829528354415700727191604602011601032138984300,
  -991959557593244146420718341329618016387053225958952728214682200186056380442816321319392491273575628203217464513383344508756365710,
  -980278220980255331505529382181136390180867596519573484172489327911199631937560666149577033452219648947769942614594243209594681600,
  -963486613014079993410194963574243939867618912278712546335338377607190325575048039955329924156650443738292641290639518036851583710,
  -941671956847637861818477390397938271466476089813827757818794963412584385666831823509930913241006189206664161567951011539559168800,
  -914947907206138729456102870799285616745780103108423056999800491374119229619172553351304744001427344715064637771537136017657187230,
  -883453765218616863337678011642167417862166694242451598530297746389904856954060693526139854389519540142741812526075037119137066920,
  -847353716209315048999086085821792517512596547477239883734173189542556112472076569284081373186722180230950436823327393485842018430,
  -806835964136938635279074740877512126060886243481752596633070532164704365541769594252521337418376347809105854801945656586336024820,
  -762111747194955121460328463029046187807595258685957756251253754556358487715735639163582603357055497395191308936248716866335647520,
  -713414235268957054851920877990904102642529167113636116396049663026358796207129092133698862411432955907549119357685513471081565250,
  -660997313751498133165134763741345394113156812534213293494759319245397023427380357903949788910531472816544192634518411695092794800,
  -605134259639600935725083071123955221438369807894527289296793282267787616332013969347236018760723728331865072872740410964173710760,
  -546116316660084719140405047179660836654854224124755802624602791726066074385831233156800333720777692369890421866602544324617209430,
  -484251176785734724069633434748513777993577081871723296322005718155330726875610962911889852688712381198661934044163571822181192790,
  -419861376029269252487279394560568026074988907714570948087352943431401562250691894908183847463812008451998692946632785598747464590,
  -353282612864303806645476364143467871780445030142565542239274145658529134258238867151588754094402884523394542862867086958752073170,
  -284861998032913627105722894838337931785879817754261169552753085233503028782233194983061545192159179147250318011365319257320448570,
  -214956244860518209014878381473674953737224286385453044442451281628053618511764648022052992887797328979538613851816865231533166580,
  -143929809510713310770299937610744688682788883471342648233007738253654903998049264586058623238226924436969495375929431497659468660,
  -72152990874586235422327250955561094857655276660614305524470443155025687228453226176846724363780351335419134149114484314800479457,
  0,
  72152990874586235422327250955561094857655276660614305524470443155025687228453226176846724363780351335419134149114484314800479457,
  143929809510713310770299937610744688682788883471342648233007738253654903998049264586058623238226924436969495375929431497659468660,
  214956244860518209014878381473674953737224286385453044442451281628053618511764648022052992887797328979538613851816865231533166580,
  284861998032913627105722894838337931785879817754261169552753085233503028782233194983061545192159179147250318011365319257320448570,
  353282612864303806645476364143467871780445030142565542239274145658529134258238867151588754094402884523394542862867086958752073170,
  419861376029269252487279394560568026074988907714570948087352943431401562250691894908183847463812008451998692946632785598747464590,
  484251176785734724069633434748513777993577081871723296322005718155330726875610962911889852688712381198661934044163571822181192790,
  546116316660084719140405047179660836654854224124755802624602791726066074385831233156800333720777692369890421866602544324617209430,
  605134259639600935725083071123955221438369807894527289296793282267787616332013969347236018760723728331865072872740410964173710760,
  660997313751498133165134763741345394113156812534213293494759319245397023427380357903949788910531472816544192634518411695092794800,
  713414235268957054851920877990904102642529167113636116396049663026358796207129092133698862411432955907549119357685513471081565250,
  762111747194955121460328463029046187807595258685957756251253754556358487715735639163582603357055497395191308936248716866335647520,
  806835964136938635279074740877512126060886243481752596633070532164704365541769594252521337418376347809105854801945656586336024820,
  847353716209315048999086085821792517512596547477239883734173189542556112472076569284081373186722180230950436823327393485842018430,
  883453765218616863337678011642167417862166694242451598530297746389904856954060693526139854389519540142741812526075037119137066920,
  914947907206138729456102870799285616745780103108423056999800491374119229619172553351304744001427344715064637771537136017657187230,
  941671956847637861818477390397938271466476089813827757818794963412584385666831823509930913241006189206664161567951011539559168800,
  963486613014079993410194963574243939867618912278712546335338377607190325575048039955329924156650443738292641290639518036851583710,
  980278220980255331505529382181136390180867596519573484172489327911199631937560666149577033452219648947769942614594243209594681600,
  991959557593244146420718341329618016387053225958952728214682200186056380442816321319392491273575628203217464513383344508756365710,
  998472332242507713517636187318392411962050717847609143293083436783380329030546865635829528354415700727191604602011601032138984300]

/-- `case 43` (Util/Gauss_Legendre_Nodes_and_Weights.hpp:4766-4984), `weights`. -/
def weights43 : List Nat := [
  3919490253844127282967165192576435433660364572690872344342743213299243532762363726489797312095570051716842582899000000000000000,
  9103996637401403318868608295896723813017975559826704077062833682249659678727635258264563776042391809028136043550000000000000000,
  14248756431576486108541601722004193572073993144162335274232879079969242021238318209772202729805928678248009355690000000000000000,
  19319901423683900396124610892071352317023559088256968555233724435158239005919442099206961227449033851070892577150000000000000000,
  24290456613838815902018324254249248455237039335812137498685221679595541577324060339017327976535219945485680599090000000000000000,
  29134413261498494915940424825781193787550569840192031959970541419628229384482653449952216160817182320020576500300000000000000000,
  33826492086860292344968475753802091053301610647132366921202168931145831080528381749375600952849389357608052712010000000000000000,
  38342222194132657572128424662849114880072562868397175520859848906858317483906991206064038370095332851874698119899000000000000000,
  42658057197982083763807205338513894104947091236767250673339329033695008070429587568380900514637177112133934309006000000000000000,
  46751494754346580010646766337102933932863095935663856844191738052186970674694169787930693666785332405516135052529900000000000000,
  50601192784390156523850398953014745749898009098012190973844284377401830691144764324028838944089178243408827595758200000000000000,
  54187080318881786863373178326265413588390552670711284703538165517264898534921117530453200232344845474402722843575690000000000000,
  57490461956910519427608916844416511927868868194565432689231139596031721268120518945778840897001295419840778772759494000000000000,
  60494115249991294519678741991362793358508879870428587431218124538290417999447370896953208676358640068283018830422632700000000000,
  63182380449396112325629817773408264256696234639468846680373238096313003113783290123929955578070190606548924066727557660000000000,
  65541242126322797491233764249207830224962533778454826322529506813199237665246218342794189573927231573803570483740043044000000000,
  67558402229365169192407904756265592142946292585729608273545792534498668002475950302793925546742002669609630794602520049900000000,
  69223344193656684282299479122635147809304989570927823819571578486618687263420823456545196023650672611368136691304343025720000000,
  70527387765085028126286355477940743183736166784964150067785882169459214486295232506045111786037208968466062908531857287096000000,
  71463734252514141297581117702910248580900019367795673239318612120319753050554111495432320479119657823766147545148669839127590000,
  72027501971421974345307551670857087753504245947414701644844973872595987230367059735362150481676212018434902529932188836752795700,
  72215751693798987977462331713736880147070690525250348970155346888440596368419877890857518187740612278728638170732229450171325613,
  72027501971421974345307551670857087753504245947414701644844973872595987230367059735362150481676212018434902529932188836752795700,
  71463734252514141297581117702910248580900019367795673239318612120319753050554111495432320479119657823766147545148669839127590000,
  70527387765085028126286355477940743183736166784964150067785882169459214486295232506045111786037208968466062908531857287096000000,
  69223344193656684282299479122635147809304989570927823819571578486618687263420823456545196023650672611368136691304343025720000000,
  67558402229365169192407904756265592142946292585729608273545792534498668002475950302793925546742002669609630794602520049900000000,
  65541242126322797491233764249207830224962533778454826322529506813199237665246218342794189573927231573803570483740043044000000000,
  63182380449396112325629817773408264256696234639468846680373238096313003113783290123929955578070190606548924066727557660000000000,
  60494115249991294519678741991362793358508879870428587431218124538290417999447370896953208676358640068283018830422632700000000000,
  57490461956910519427608916844416511927868868194565432689231139596031721268120518945778840897001295419840778772759494000000000000,
  54187080318881786863373178326265413588390552670711284703538165517264898534921117530453200232344845474402722843575690000000000000,
  50601192784390156523850398953014745749898009098012190973844284377401830691144764324028838944089178243408827595758200000000000000,
  46751494754346580010646766337102933932863095935663856844191738052186970674694169787930693666785332405516135052529900000000000000,
  42658057197982083763807205338513894104947091236767250673339329033695008070429587568380900514637177112133934309006000000000000000,
  38342222194132657572128424662849114880072562868397175520859848906858317483906991206064038370095332851874698119899000000000000000,
  33826492086860292344968475753802091053301610647132366921202168931145831080528381749375600952849389357608052712010000000000000000,
  29134413261498494915940424825781193787550569840192031959970541419628229384482653449952216160817182320020576500300000000000000000,
  24290456613838815902018324254249248455237039335812137498685221679595541577324060339017327976535219945485680599090000000000000000,
  19319901423683900396124610892071352317023559088256968555233724435158239005919442099206961227449033851070892577150000000000000000,
  14248756431576486108541601722004193572073993144162335274232879079969242021238318209772202729805928678248009355690000000000000000,
  9103996637401403318868608295896723813017975559826704077062833682249659678727635258264563776042391809028136043550000000000000000,
  3919490253844127282967165192576435433660364572690872344342743213299243532762363726489797312095570051716842582899000000000000000]

/-- `case 44` (Util/Gauss_Legendre_Nodes_and_Weights.hpp:4986-5210), `nodes`. -/
def nodes44 : List Int := [
  -998540200636774224936056720606650349056030033175414597998848165682413548307264758055663962159421854965704826648930676378589107000,
  -992316392138515808483338003613538568811897784352210077458256475732398223464801579664123847580373417455392716866606298426556687030,
  -981151833077913966662749005350487828805675555539657739529155233817416928367979729068957273391790105951241486043461571522247551160,
  -965099650422493139394398050580234974716877138589885092775351634517166767957396127153223318336517303318051497479598468995079874360,
  -944239509118194099203254653026989251072454934759922975343893296740639975515016571255547428505302941762796628999932687234234832920,
  -918675259984175774323001086694252048937985263045053005973412214316013735348719603657428467324600284353074891929915720266585288150,
  -888534238286043202338367910190322324758332458209425900067789683559533050276212032009773266922385392579163076210451005071613142350,
  -853966595004710378728302241292683890361169062029068449748006246405063688075160404451789273332076834957084580548995221863460611820,
  -815144539645135010487437635751940550299400574508594243568794221675522654112353722723477837084260475598736315537343392585512110580,
  -772261479248755899017758549231988013728096439565447109763073879427548144526394324812149288170258309393176631140097314311218707910,
  -725531053660717002606964936719953611012465800208095259933022878938697850890290791000379913293273669440656464428333095862251309070,
  -675186070666122365333699038563899923328255401123770875302277173182905595845400656764304772170059841838850889998419285491821480810,
  -621477345903575847802424699121766747144405880017163559156472322821117457095520581334291011136874539174219886732964150138857516130,
  -564672453185470768424636819382075219490745479604266115235568123667925690028637842176925721219000419331351138167879658939023721410,
  -505054391388202317982798352291177238612073295505348613273769296577404307383415835101718352916799759452025118694054728242616048930,
  -442920174525411483834826593647313549538478460308117949240253924028274872878395326520463413216771859416189683197105900411451626560,
  -378579352014707132511764672772197856742820848495670373289838197588983199574104297689477255000261832940093204263978908989827781020,
  -312352466502785812236545163572978535519263621753288636426361219915066178890895492288451103029854897593992203493233138276545344580,
  -244569456928201251507302434740518620530487259280049603670089816483453779173847372374373772330291034347184938377517078591679224130,
  -175568014775516785746507749380976590647374506724513315407024572329264600790354032819443773672558680846050803253666338355787766480,
  -105691901708653247117305848915121752383385998859597613782401496431801112854648588967954920974066900109572104138324971369950267890,
  -35289236964135359058196704631416355885002197589527076777138805002670829312920429653808850340517739470490406843224151579852841946,
  35289236964135359058196704631416355885002197589527076777138805002670829312920429653808850340517739470490406843224151579852841946,
  105691901708653247117305848915121752383385998859597613782401496431801112854648588967954920974066900109572104138324971369950267890,
  175568014775516785746507749380976590647374506724513315407024572329264600790354032819443773672558680846050803253666338355787766480,
  244569456928201251507302434740518620530487259280049603670089816483453779173847372374373772330291034347184938377517078591679224130,
  312352466502785812236545163572978535519263621753288636426361219915066178890895492288451103029854897593992203493233138276545344580,
  378579352014707132511764672772197856742820848495670373289838197588983199574104297689477255000261832940093204263978908989827781020,
  442920174525411483834826593647313549538478460308117949240253924028274872878395326520463413216771859416189683197105900411451626560,
  505054391388202317982798352291177238612073295505348613273769296577404307383415835101718352916799759452025118694054728242616048930,
  564672453185470768424636819382075219490745479604266115235568123667925690028637842176925721219000419331351138167879658939023721410,
  621477345903575847802424699121766747144405880017163559156472322821117457095520581334291011136874539174219886732964150138857516130,
  675186070666122365333699038563899923328255401123770875302277173182905595845400656764304772170059841838850889998419285491821480810,
  725531053660717002606964936719953611012465800208095259933022878938697850890290791000379913293273669440656464428333095862251309070,
  772261479248755899017758549231988013728096439565447109763073879427548144526394324812149288170258309393176631140097314311218707910,
  815144539645135010487437635751940550299400574508594243568794221675522654112353722723477837084260475598736315537343392585512110580,
  853966595004710378728302241292683890361169062029068449748006246405063688075160404451789273332076834957084580548995221863460611820,
  888534238286043202338367910190322324758332458209425900067789683559533050276212032009773266922385392579163076210451005071613142350,
  918675259984175774323001086694252048937985263045053005973412214316013735348719603657428467324600284353074891929915720266585288150,
  944239509118194099203254653026989251072454934759922975343893296740639975515016571255547428505302941762796628999932687234234832920,
  965099650422493139394398050580234974716877138589885092775351634517166767957396127153223318336517303318051497479598468995079874360,
  981151833077913966662749005350487828805675555539657739529155233817416928367979729068957273391790105951241486043461571522247551160,
  992316392138515808483338003613538568811897784352210077458256475732398223464801579664123847580373417455392716866606298426556687030,
  998540200636774224936056720606650349056030033175414597998848165682413548307264758055663962159421854965704826648930676378589107000]

/-- `case 44` (Util/Gauss_Legendre_Nodes_and_Weights.hpp:4986-5210), `weights`. -/
def weights44 : List Nat := [
  3745404803112777515173778831761538477697916343282173166593639397636192382878869870085833441482595142174354169663000000000000000,
  8700481367524844122565623424313140208468421158361896093374448982742925916789764877056550502231350368724113975650000000000000000,
  13619586755579985520205066390061378873266719754870723311076365105783698526864146226974193028873402159558446711200000000000000000,
  18471481736814749172042223743399844115520738313901877334904764564890989270347031870017894027436709517560737260200000000000000000,
  23231481902019210628958262938731417488221902035657997182216136239389143644401028684964624329485355127861799143100000000000000000,
  27875782821281010081114291779387064322058839892990348644749134592835626821381539828795138747975904729946826803600000000000000000,
  32381222812069820880846939540111601146948051780029420506924773667616752185921804366522589179762713000630054469860000000000000000,
  36725347813808873642909292348701799710708787999746872891109225074680705229561090592323768635592603777669190176640000000000000000,
  40886512310346218908447169283068486854079289026702596042432842962065354275486454350462624297001677349922330130614000000000000000,
  44843984081970031446243186403051107180963021655733999690310078969760752497925412056838808386129437235092402881035000000000000000,
  48578046448352037527639436691292737615051399106824675925743849787884092474813427579723427306042779385163109968133200000000000000,
  52070096091704461881231802993198751056264174741116926558639068104551753748859477031009374501414231766493803947181400000000000000,
  55302735563728052548746632643152991471534846417617760101493571999832329242910649714183859600640716359108167256200690000000000000,
  58259859877595495334210689844277168004756169103353567354696573873380288081064277519141699639681419621822299307602581000000000000,
  60926736701561968038557836874374100672572489481650112229295794235874860689092783301208342708988293396851855951968085300000000000,
  63290079733203854950138871019714930638024288244094185443743985041920414662754076203440278766958751785861809796616540000000000000,
  65338114879181434984240894845622189496010801129676928583534009604184816307367752444451691814425565687172892435149413351000000000,
  67060638906293652395704919351719350780713013072761567956751101861969025993789273617129570018902488465233808819304573611070000000,
  68449070269366660985458660704349872445155543635900040898294387542946891529327527883063413924419733086207373793123044015371000000,
  69496491861572578037084090925011256782093475381174227360041977055778607745881305171505242147684984605488815741391484748019800000,
  70197685473558212587142041944399387668826686215628457933332838708253903572625398861599402238108595404542997693530890644676653000,
  70549157789354068811338287480299884991063425508923644790741432626020875199956907949501672756760692026912809568240680271410314940,
  70549157789354068811338287480299884991063425508923644790741432626020875199956907949501672756760692026912809568240680271410314940,
  70197685473558212587142041944399387668826686215628457933332838708253903572625398861599402238108595404542997693530890644676653000,
  69496491861572578037084090925011256782093475381174227360041977055778607745881305171505242147684984605488815741391484748019800000,
  68449070269366660985458660704349872445155543635900040898294387542946891529327527883063413924419733086207373793123044015371000000,
  67060638906293652395704919351719350780713013072761567956751101861969025993789273617129570018902488465233808819304573611070000000,
  65338114879181434984240894845622189496010801129676928583534009604184816307367752444451691814425565687172892435149413351000000000,
  63290079733203854950138871019714930638024288244094185443743985041920414662754076203440278766958751785861809796616540000000000000,
  60926736701561968038557836874374100672572489481650112229295794235874860689092783301208342708988293396851855951968085300000000000,
  58259859877595495334210689844277168004756169103353567354696573873380288081064277519141699639681419621822299307602581000000000000,
  55302735563728052548746632643152991471534846417617760101493571999832329242910649714183859600640716359108167256200690000000000000,
  52070096091704461881231802993198751056264174741116926558639068104551753748859477031009374501414231766493803947181400000000000000,
  48578046448352037527639436691292737615051399106824675925743849787884092474813427579723427306042779385163109968133200000000000000,
  44843984081970031446243186403051107180963021655733999690310078969760752497925412056838808386129437235092402881035000000000000000,
  40886512310346218908447169283068486854079289026702596042432842962065354275486454350462624297001677349922330130614000000000000000,
  36725347813808873642909292348701799710708787999746872891109225074680705229561090592323768635592603777669190176640000000000000000,
  32381222812069820880846939540111601146948051780029420506924773667616752185921804366522589179762713000630054469860000000000000000,
  27875782821281010081114291779387064322058839892990348644749134592835626821381539828795138747975904729946826803600000000000000000,
  23231481902019210628958262938731417488221902035657997182216136239389143644401028684964624329485355127861799143100000000000000000,
  18471481736814749172042223743399844115520738313901877334904764564890989270347031870017894027436709517560737260200000000000000000,
  13619586755579985520205066390061378873266719754870723311076365105783698526864146226974193028873402159558446711200000000000000000,
  8700481367524844122565623424313140208468421158361896093374448982742925916789764877056550502231350368724113975650000000000000000,
  3745404803112777515173778831761538477697916343282173166593639397636192382878869870085833441482595142174354169663000000000000000]

/-- `case 45` (Util/Gauss_Legendre_Nodes_and_Weights.hpp:5212-5440), `nodes`. -/
def nodes45 : List Int := [
  -998603645181936638156547676900820548092288527214475416888956398136784721148581556420097601607968882019301430663410649543358800590,
  -992649998447203741748617120597735344975001643303639350616987928300824197099942464642166179243808500375007059976130448602137203270,
  -981968715034540568239318473634341481538365249220461807986892150002972483609364282981967661967216229381638389874586130983934702250,
  -966608310396894604736425160892478097116679030609415413867974885172356184383587821719197254311222087415128435425904010485507160440,
  -946641690995629061784720596953837078450468344167135050797855603113730702922875045529609268033954527080306778789363287764758246380,
  -922163936719000388097467360960527319265362877250661168350826589492660166128976606157752107036330350133285715149095744682992393420,
  -893291671753241738464649051493057346365401240413792686162711109454673202620411522876808799195665403946832991191606792845627540330,
  -860162475960664225339078870567134387783414423577022101078593492538901760108939949271642026572459535057960581395624164778531973320,
  -822934220502086337035775260026502029993415258056270433544041731171694825907369903404543630643690207602537999604820385774330629970,
  -781784312593906291312363188098602817660273516839061523039288398276653438742917939627807745303134802133155564794334647631542350260,
  -736908848945490352623738848594892019879605680837617080927343398934760572965994625121781992573540567052728876434108798294173548900,
  -688521680771200525232019825880438235955233005618527780720947111673457039290782396903492049872451544244367490319792478458690212030,
  -636853394453223359271223845903383150692031243465676440542848628761982856753213491652867577727523715259002363434604624646690203720,
  -582150212569353186680967334444177131000088825983227146023586027765914456939465368454750089063531566895135308179951066920064564620,
  -524672820462916067091134100460162402607108270800282586890855465768317456428101403596120922291055964980288324119264897548628952400,
  -464695123919635098579601502309748510839812667237190882847246380025506436834610570631632171062538860283235775357296059624734482600,
  -402502943858541914077974508548346455970299357569396438835857680134075195051104480488214375432958548719828293993580324558001148990,
  -338392654250602161643404100031872989532341443137422697947592983487735448979414089299374060807781315265053177538735490310931183980,
  -272669769752377560608765391615645181898211754276642060121507169176397942871003580771960871993419728667017105337778121840155549700,
  -205647489783263745719787225471543930703236385699429831041233813679107455548043762750195353316291206573569041327232026378406797640,
  -137645205983253028756590041423065553106765556541525059617890029927176757211939749824079514544908252896219976668839806285019722480,
  -68986980163144172490414614103811729693920666930969682665409255288528892489764504775890745061716844775810576283379030998907062355,
  0,
  68986980163144172490414614103811729693920666930969682665409255288528892489764504775890745061716844775810576283379030998907062355,
  137645205983253028756590041423065553106765556541525059617890029927176757211939749824079514544908252896219976668839806285019722480,
  205647489783263745719787225471543930703236385699429831041233813679107455548043762750195353316291206573569041327232026378406797640,
  272669769752377560608765391615645181898211754276642060121507169176397942871003580771960871993419728667017105337778121840155549700,
  338392654250602161643404100031872989532341443137422697947592983487735448979414089299374060807781315265053177538735490310931183980,
  402502943858541914077974508548346455970299357569396438835857680134075195051104480488214375432958548719828293993580324558001148990,
  464695123919635098579601502309748510839812667237190882847246380025506436834610570631632171062538860283235775357296059624734482600,
  524672820462916067091134100460162402607108270800282586890855465768317456428101403596120922291055964980288324119264897548628952400,
  582150212569353186680967334444177131000088825983227146023586027765914456939465368454750089063531566895135308179951066920064564620,
  636853394453223359271223845903383150692031243465676440542848628761982856753213491652867577727523715259002363434604624646690203720,
  688521680771200525232019825880438235955233005618527780720947111673457039290782396903492049872451544244367490319792478458690212030,
  736908848945490352623738848594892019879605680837617080927343398934760572965994625121781992573540567052728876434108798294173548900,
  781784312593906291312363188098602817660273516839061523039288398276653438742917939627807745303134802133155564794334647631542350260,
  822934220502086337035775260026502029993415258056270433544041731171694825907369903404543630643690207602537999604820385774330629970,
  860162475960664225339078870567134387783414423577022101078593492538901760108939949271642026572459535057960581395624164778531973320,
  893291671753241738464649051493057346365401240413792686162711109454673202620411522876808799195665403946832991191606792845627540330,
  922163936719000388097467360960527319265362877250661168350826589492660166128976606157752107036330350133285715149095744682992393420,
  946641690995629061784720596953837078450468344167135050797855603113730702922875045529609268033954527080306778789363287764758246380,
  966608310396894604736425160892478097116679030609415413867974885172356184383587821719197254311222087415128435425904010485507160440,
  981968715034540568239318473634341481538365249220461807986892150002972483609364282981967661967216229381638389874586130983934702250,
  992649998447203741748617120597735344975001643303639350616987928300824197099942464642166179243808500375007059976130448602137203270,
  998603645181936638156547676900820548092288527214475416888956398136784721148581556420097601607968882019301430663410649543358800590]

/-- `case 45` (Util/Gauss_Legendre_Nodes_and_Weights.hpp:5212-5440), `weights`. -/
def weights45 : List Nat := [
  3582663155283558931143028659351392570585636358183944614043812970337282458387026250335092559376358788294661684970000000000000000,
  8323189296218241645735853122233853756157931292948221894956479215855744407324283517330279578779258921885060887600000000000000000,
  13031104991582784320631082469686926027141171582638991140910666501517193575601720041815189159153545810761955903400000000000000000,
  17677535257937590617092546669577088520651278126465788017364173395791419344940997034937371745236081436290813436500000000000000000,
  22239847550578732393950758552168993344875708701299970719609886244873774664094673759517875882547646118275904505500000000000000000,
  26696213967577664805674778793107527787824910565891523568536449814312066178574263164754883674453463191634315664500000000000000000,
  31025374934515467162507938893768063885921152123974800441854171750540660433844018312515749111274950503226747466800000000000000000,
  35206692201609016247699798261575090810088074712714641340774353275271042714438724716007031376739396207812082144920000000000000000,
  39220236729302447564187185343929338218130124596306669807227871516880678876847418898433502791282708012122489645850000000000000000,
  43046880709164971151691113081166941788319236163191320154316807136776423919580973452317371056582094378025403951663000000000000000,
  46668387718373365267768475741654101204986141487853582512766785479862957471543103573495814510675601053086635956696000000000000000,
  50067499237952029799132102474874317391498692935146437230482188574316360661430117730807214046896746781291662460303100000000000000,
  53228016731268951945904044019310403798482216940175515966048253621689802494128517585582154880059632449841445981973310000000000000,
  56134878759786476643923940374869763241480184946163015800445091253071159018362827003378215598951582605077069867012277000000000000,
  58774232718841738574361517631831422531265725460980208116575926119542543519672300824472909189554372362743284746708019400000000000,
  61133500831066522501886370536325573260124234265242120073508642625773363204001726335928066711086309395282164769773692450000000000,
  63201440073819937749963730290666881866300237275822817020858633594145052673063558826602281004629919669358964281799175766000000000,
  64968195750723430853826570359075695083849725487583273052023754991352747843234821370797859721784920731764209563571531273600000000,
  66425348449842528082914715639103737613174546750674815956038925523310902419397183026998315183719130287112108942491639153630000000,
  67565954163607536270910223873648630979472580923946461993453587314243601383812324545485468287757106402134562539595683128633200000,
  68384577378669674531692099334316097073484913054644946380889445614953208491513763145756640274920346267675385611872850558174210000,
  68877316977661322882002848298055788884524130110648545158741068385083003241449883155150428417139859398742911097906094690407611100,
  69041824829232020110798555159404740723322892275004778077146050160998022009511547455160570474797938455120317777055603069398363648,
  68877316977661322882002848298055788884524130110648545158741068385083003241449883155150428417139859398742911097906094690407611100,
  68384577378669674531692099334316097073484913054644946380889445614953208491513763145756640274920346267675385611872850558174210000,
  67565954163607536270910223873648630979472580923946461993453587314243601383812324545485468287757106402134562539595683128633200000,
  66425348449842528082914715639103737613174546750674815956038925523310902419397183026998315183719130287112108942491639153630000000,
  64968195750723430853826570359075695083849725487583273052023754991352747843234821370797859721784920731764209563571531273600000000,
  63201440073819937749963730290666881866300237275822817020858633594145052673063558826602281004629919669358964281799175766000000000,
  61133500831066522501886370536325573260124234265242120073508642625773363204001726335928066711086309395282164769773692450000000000,
  58774232718841738574361517631831422531265725460980208116575926119542543519672300824472909189554372362743284746708019400000000000,
  56134878759786476643923940374869763241480184946163015800445091253071159018362827003378215598951582605077069867012277000000000000,
  53228016731268951945904044019310403798482216940175515966048253621689802494128517585582154880059632449841445981973310000000000000,
  50067499237952029799132102474874317391498692935146437230482188574316360661430117730807214046896746781291662460303100000000000000,
  46668387718373365267768475741654101204986141487853582512766785479862957471543103573495814510675601053086635956696000000000000000,
  43046880709164971151691113081166941788319236163191320154316807136776423919580973452317371056582094378025403951663000000000000000,
  39220236729302447564187185343929338218130124596306669807227871516880678876847418898433502791282708012122489645850000000000000000,
  35206692201609016247699798261575090810088074712714641340774353275271042714438724716007031376739396207812082144920000000000000000,
  31025374934515467162507938893768063885921152123974800441854171750540660433844018312515749111274950503226747466800000000000000000,
  26696213967577664805674778793107527787824910565891523568536449814312066178574263164754883674453463191634315664500000000000000000,
  22239847550578732393950758552168993344875708701299970719609886244873774664094673759517875882547646118275904505500000000000000000,
  17677535257937590617092546669577088520651278126465788017364173395791419344940997034937371745236081436290813436500000000000000000,
  13031104991582784320631082469686926027141171582638991140910666501517193575601720041815189159153545810761955903400000000000000000,
  8323189296218241645735853122233853756157931292948221894956479215855744407324283517330279578779258921885060887600000000000000000,
  3582663155283558931143028659351392570585636358183944614043812970337282458387026250335092559376358788294661684970000000000000000]

/-- `case 46` (Util/Gauss_Legendre_Nodes_and_Weights.hpp:5442-5676), `nodes`. -/
def nodes46 : List Int := [
  -998663042133817981128268417390888774584155607434631726091105545002677659811465411707192234457838888116150834475479319053516732870,
  -992962348906174364073095444666193409121102830908384025198847617422664112530325501240860569740044171330737950328779843479874403160,
  -982733669804166863477979579659188720219563370298428800645819166829888746443806285145108050291432177199848241515249186051254424260,
  -968021391853991942737748066371815508522311826353630100715320173888895767660788509240753034323398314089043486589024752180375146320,
  -948892363446089795622213539436914139525771383293245332781093565948923320889086912151528936050659963576618992098706397485253997820,
  -925433798806753950977491357699124258882343756438955847601203626653849030675435412275992066128531896996705123269812153133945550840,
  -897752711533941965701319951319781289454629645301351089981419998158170932885247092723327365590349597270407535522006703215727914760,
  -865975394866858062915888776816598438687304744337904484030301305482634639744118126133451983804937607690494809181883322724091911510,
  -830246837066066053032385304790806117995806253970380608030244879399951201595797178461687055389200418480632258981897351793408963790,
  -790730057075274255189144147420302411147969513084711109869007879684747100138912322800683551552597413415667981458238003543113114280,
  -747605359615666054000336505268002868905722180002546494969313387175753660481642082864041717969806159352078059365721738883298605440,
  -701069512020405697512122089426500450249575983149938646468437299009301155617996757876112635617210095968624577474080279870947244250,
  -651334846201997715106477155816859367227604057318475939449212160355934631862558484370798347407400041078764912690757695784511873990,
  -598628289712715153177172533600167310148466334564629947822168399476283787540298311450735878271288664500462684204469841931464776340,
  -543190330261802635270962691028876836033978470384916085390840241306467860343325266628571273359661798862298644775114269449033860980,
  -485273918388164662772320193708454808319667559283038703544502448904858518780645909382581856798111207589641070695553336926663198270,
  -425143313282828397322146863428567419169337769107934691682056283298400289723772035823951604636468126654731705992900690391291006530,
  -363072877020995710123706978514651689847388842857642471497983749684461978584606029156655807883116427684057116455067790227495178150,
  -299345822701870015483439256577903929356092317554238349223666587843633281873949872888576246414760305854145342546318842741128094740,
  -234252922206269768626056115573792492574088821990498025622528635145707473656358126261400988600694138063017985737682038201358947300,
  -168091179467103528606796737427702127447489281836469396731982544330381198373397494784901042059618827997604967742227707815079671070,
  -101162475305584239515859657008649390881871360501493739619515960454422900570498073287493777140387839816126841292416227335274675290,
  -33772190016052041519557831891439763815916115996201920682105177728262501319912988315403218535990837100190721107062987376493945992,
  33772190016052041519557831891439763815916115996201920682105177728262501319912988315403218535990837100190721107062987376493945992,
  101162475305584239515859657008649390881871360501493739619515960454422900570498073287493777140387839816126841292416227335274675290,
  168091179467103528606796737427702127447489281836469396731982544330381198373397494784901042059618827997604967742227707815079671070,
  234252922206269768626056115573792492574088821990498025622528635145707473656358126261400988600694138063017985737682038201358947300,
  299345822701870015483439256577903929356092317554238349223666587843633281873949872888576246414760305854145342546318842741128094740,
  363072877020995710123706978514651689847388842857642471497983749684461978584606029156655807883116427684057116455067790227495178150,
  425143313282828397322146863428567419169337769107934691682056283298400289723772035823951604636468126654731705992900690391291006530,
  485273918388164662772320193708454808319667559283038703544502448904858518780645909382581856798111207589641070695553336926663198270,
  543190330261802635270962691028876836033978470384916085390840241306467860343325266628571273359661798862298644775114269449033860980,
  598628289712715153177172533600167310148466334564629947822168399476283787540298311450735878271288664500462684204469841931464776340,
  651334846201997715106477155816859367227604057318475939449212160355934631862558484370798347407400041078764912690757695784511873990,
  701069512020405697512122089426500450249575983149938646468437299009301155617996757876112635617210095968624577474080279870947244250,
  747605359615666054000336505268002868905722180002546494969313387175753660481642082864041717969806159352078059365721738883298605440,
  790730057075274255189144147420302411147969513084711109869007879684747100138912322800683551552597413415667981458238003543113114280,
  830246837066066053032385304790806117995806253970380608030244879399951201595797178461687055389200418480632258981897351793408963790,
  865975394866858062915888776816598438687304744337904484030301305482634639744118126133451983804937607690494809181883322724091911510,
  897752711533941965701319951319781289454629645301351089981419998158170932885247092723327365590349597270407535522006703215727914760,
  925433798806753950977491357699124258882343756438955847601203626653849030675435412275992066128531896996705123269812153133945550840,
  948892363446089795622213539436914139525771383293245332781093565948923320889086912151528936050659963576618992098706397485253997820,
  968021391853991942737748066371815508522311826353630100715320173888895767660788509240753034323398314089043486589024752180375146320,
  982733669804166863477979579659188720219563370298428800645819166829888746443806285145108050291432177199848241515249186051254424260,
  992962348906174364073095444666193409121102830908384025198847617422664112530325501240860569740044171330737950328779843479874403160,
  998663042133817981128268417390888774584155607434631726091105545002677659811465411707192234457838888116150834475479319053516732870]

/-- `case 46` (Util/Gauss_Legendre_Nodes_and_Weights.hpp:5442-5676), `weights`. -/
def weights46 : List Nat := [
  3430300868107048286018783148043404441172945805211331244328816434875949892551238182503388921797051870169662865750000000000000000,
  7969898229724622451613038926324965426288770992596539380397499997975628124370633705681497387270201422627482601600000000000000000,
  12479883770988684206734571750983375177522547385350890491009296899662821005499596195084471452785814746881326048900000000000000000,
  16933514007836238046230713671760431333726443825694151085762814322924401021598559143674513129939876252383909500200000000000000000,
  21309998754136501054479361070878401828843776520524016394976078724152783156400024225089514667919175107426621612600000000000000000,
  25589286397130010634699512200344028102879560738616993953797743153634566621914294606802992909570885214126142682600000000000000000,
  29751829552202755799051729235722937093028753818948867488994443447084947537372566489490361961478805977321329902400000000000000000,
  33778627999106896520603893881145328727799480475200311002167413072967728024701971412605780638453569699212691876500000000000000000,
  37651305357386071327660799228459117026955119454260671962546195704656695906481092362687557765052545014660636784260000000000000000,
  41352190109678729704220175870231478424206224113772626152303556157384153698715543748418969265846016412065899956050000000000000000,
  44864395277318126767094613562774856442286700518425178377238509110235769880521139231423776703965757925101684363044000000000000000,
  48171895101712200530468863223220936681975492367462169167421778078823742839584151659078287984146225255493321694063300000000000000,
  51259598007143021335365299371448033464181501626530532495638002827584025819456220598587338874545727576038633756400100000000000000,
  54113415385856754491637643259223075259897469041135066237872252040159132422545371014511123400404820231970624571071430000000000000,
  56720325843991235816874403603286714586427022609114754741121924888467139031077708080399927845695946164065279235132078000000000000,
  59068434595546314807550722636907737098216948492230296771996404948684153607822935226995132703043453286684654704982373800000000000,
  61147027724650481015356607904191037772781632857853607627739743647201880678596195350307738450156009328401388484456288590000000000,
  62946621064394508178951952247110931233246165031786220871079805369439216505408452227971118540504008958010409928422847525000000000,
  64459003467139069588279439108255063923795645045018492497479198957391873580963000576145206648439041479912990054795784216360000000,
  65677274267781207378757565685555767621716139773811715481431421684375497888962773542075614441008245954208082293166495136826000000,
  66595874768454887375761966422733701944363708800992109269751042099291203990272853284701024715028962954947724060871506836274300000,
  67210613600678175862374154827097596176539681165645202159776122945922525245184301563376628623139287401202540402723052066276007000,
  67518685849036458820214189164301080212148269539818255145169935487104163519999377572388032969808571767086962619979553000389134520,
  67518685849036458820214189164301080212148269539818255145169935487104163519999377572388032969808571767086962619979553000389134520,
  67210613600678175862374154827097596176539681165645202159776122945922525245184301563376628623139287401202540402723052066276007000,
  66595874768454887375761966422733701944363708800992109269751042099291203990272853284701024715028962954947724060871506836274300000,
  65677274267781207378757565685555767621716139773811715481431421684375497888962773542075614441008245954208082293166495136826000000,
  64459003467139069588279439108255063923795645045018492497479198957391873580963000576145206648439041479912990054795784216360000000,
  62946621064394508178951952247110931233246165031786220871079805369439216505408452227971118540504008958010409928422847525000000000,
  61147027724650481015356607904191037772781632857853607627739743647201880678596195350307738450156009328401388484456288590000000000,
  59068434595546314807550722636907737098216948492230296771996404948684153607822935226995132703043453286684654704982373800000000000,
  56720325843991235816874403603286714586427022609114754741121924888467139031077708080399927845695946164065279235132078000000000000,
  54113415385856754491637643259223075259897469041135066237872252040159132422545371014511123400404820231970624571071430000000000000,
  51259598007143021335365299371448033464181501626530532495638002827584025819456220598587338874545727576038633756400100000000000000,
  48171895101712200530468863223220936681975492367462169167421778078823742839584151659078287984146225255493321694063300000000000000,
  44864395277318126767094613562774856442286700518425178377238509110235769880521139231423776703965757925101684363044000000000000000,
  41352190109678729704220175870231478424206224113772626152303556157384153698715543748418969265846016412065899956050000000000000000,
  37651305357386071327660799228459117026955119454260671962546195704656695906481092362687557765052545014660636784260000000000000000,
  33778627999106896520603893881145328727799480475200311002167413072967728024701971412605780638453569699212691876500000000000000000,
  29751829552202755799051729235722937093028753818948867488994443447084947537372566489490361961478805977321329902400000000000000000,
  25589286397130010634699512200344028102879560738616993953797743153634566621914294606802992909570885214126142682600000000000000000,
  21309998754136501054479361070878401828843776520524016394976078724152783156400024225089514667919175107426621612600000000000000000,
  16933514007836238046230713671760431333726443825694151085762814322924401021598559143674513129939876252383909500200000000000000000,
  12479883770988684206734571750983375177522547385350890491009296899662821005499596195084471452785814746881326048900000000000000000,
  7969898229724622451613038926324965426288770992596539380397499997975628124370633705681497387270201422627482601600000000000000000,
  3430300868107048286018783148043404441172945805211331244328816434875949892551238182503388921797051870169662865750000000000000000]

/-- `case 47` (Util/Gauss_Legendre_Nodes_and_Weights.hpp:5678-5916), `nodes`. -/
def nodes47 : List Int := [
  -998718728584212109183947714787108491627090651231490809215968162548578769219829329795457682502153384859449621288528450971833214090,
  -993255210987768634692189684632463608145712084110630734539309680964528823183058101493079042319396332744085897197847001118909079880,
  -983451003071623708764901034036169851931654219108093774380255121806394634823523653419605393620819830044370401013650065910994413090,
  -969346787326564497145744277560270805338302946979504136486878505523275013400140885646872189778317537577230035155380014798758734180,
  -951003969257708442589802923851442422653601515387379028968711834705124429688399936139249034877124094051493411265801688252647369460,
  -928502693012360648197184924611320981375418786943033989725792946744669301970549080395297642213442815311797601504726975786374337060,
  -901941329438525356867171301977435639638634486432284780259593720551789844637758734193095417093947409418585392048158871252858679770,
  -871436015796896316940985464555606171051926526115779609267595293031473082386347726183057535444180065368545245129450647371894946000,
  -837120139899902121277598948566352364181868949463442593636115421804581861364282845674914012386219303607643421959155970494769763520,
  -799143754167741942915562069203593012040520856198734943199950734899707641982210219252376851458416909044504010714825024011555570740,
  -757672918445438633573996523569682201213419910433653432904313179369016265871705189333680936241716138546515643508429502510790457510,
  -712888973409064301661879327771018811704250245755917143086655421201262681802310083285929262827736604198451286346933435154800223180,
  -664987747390332729136702648572089061430514814533270925760173781476555763706556216350652579017829646744656839622815445002545186310,
  -614178699956373608595462542604253686248179945090204749702087227338907968030223859467963422383447950091228748801971450881497140490,
  -560684005934664194483058317418268791143523454591137439498223235344326752726466651133729898499090719861472054262566323944801400990,
  -504737583863577919774289025351301090273203119224602529322682727889967914102052056860786611823179292373661003561813501443638027100,
  -446584073104855702725182142349407959393417005198721099429926231490214482539834078692729801080401259866320042389417448230443931890,
  -386477764084667139583302387606023270201837608014830014937924851845656821869267071711391260846185278453064552309942674258385597040,
  -324681486337735902210761299179996836399628916007062325882109656774997312652640312798637793625033838345614043566024090223170185940,
  -261465459214974570306982966205170974233322733796879725321398881411873542701276011588397813697351719232564904274379553572902233910,
  -197106110279111807961491358370504617554862870422339665354289381119971851229193235613234831219635326118033623577742941160456144330,
  -131884866554514897053823530724127241363335153438488912950255223928775639406024661161471195823657085070766833936963374553011388880,
  -66086923916355675160473777474133708592276273936220408872275555583972710159673102157666830622263534233681754836493173921874179966,
  0,
  66086923916355675160473777474133708592276273936220408872275555583972710159673102157666830622263534233681754836493173921874179966,
  131884866554514897053823530724127241363335153438488912950255223928775639406024661161471195823657085070766833936963374553011388880,
  197106110279111807961491358370504617554862870422339665354289381119971851229193235613234831219635326118033623577742941160456144330,
  261465459214974570306982966205170974233322733796879725321398881411873542701276011588397813697351719232564904274379553572902233910,
  324681486337735902210761299179996836399628916007062325882109656774997312652640312798637793625033838345614043566024090223170185940,
  386477764084667139583302387606023270201837608014830014937924851845656821869267071711391260846185278453064552309942674258385597040,
  446584073104855702725182142349407959393417005198721099429926231490214482539834078692729801080401259866320042389417448230443931890,
  504737583863577919774289025351301090273203119224602529322682727889967914102052056860786611823179292373661003561813501443638027100,
  560684005934664194483058317418268791143523454591137439498223235344326752726466651133729898499090719861472054262566323944801400990,
  614178699956373608595462542604253686248179945090204749702087227338907968030223859467963422383447950091228748801971450881497140490,
  664987747390332729136702648572089061430514814533270925760173781476555763706556216350652579017829646744656839622815445002545186310,
  712888973409064301661879327771018811704250245755917143086655421201262681802310083285929262827736604198451286346933435154800223180,
  757672918445438633573996523569682201213419910433653432904313179369016265871705189333680936241716138546515643508429502510790457510,
  799143754167741942915562069203593012040520856198734943199950734899707641982210219252376851458416909044504010714825024011555570740,
  837120139899902121277598948566352364181868949463442593636115421804581861364282845674914012386219303607643421959155970494769763520,
  871436015796896316940985464555606171051926526115779609267595293031473082386347726183057535444180065368545245129450647371894946000,
  901941329438525356867171301977435639638634486432284780259593720551789844637758734193095417093947409418585392048158871252858679770,
  928502693012360648197184924611320981375418786943033989725792946744669301970549080395297642213442815311797601504726975786374337060,
  951003969257708442589802923851442422653601515387379028968711834705124429688399936139249034877124094051493411265801688252647369460,
  969346787326564497145744277560270805338302946979504136486878505523275013400140885646872189778317537577230035155380014798758734180,
  983451003071623708764901034036169851931654219108093774380255121806394634823523653419605393620819830044370401013650065910994413090,
  993255210987768634692189684632463608145712084110630734539309680964528823183058101493079042319396332744085897197847001118909079880,
  998718728584212109183947714787108491627090651231490809215968162548578769219829329795457682502153384859449621288528450971833214090]

/-- `case 47` (Util/Gauss_Legendre_Nodes_and_Weights.hpp:5678-5916), `weights`. -/
def weights47 : List Nat := [
  3287453842528014883249964208336179851360622407070946160691894490763171569323710406101986448643639515854706110700000000000000000,
  7638616295848833614104356771131655504420589822565105358043170646178365325901708466463728223345832885653044504700000000000000000,
  11962848464312320963943454849948512523392908362468022532336403561299545366667784311421598119022689591866547855000000000000000000,
  16235333146433059670725687407898621015892919043975006725478882338886813466408932453221944916766573320644355617000000000000000000,
  20436938147668427642034760686255386427231049024156903703212290823235092757249188078210126811635063957446176556000000000000000000,
  24549211659658818537834157152505767137663152164831309893386866996174357273686811388474580664052048780765021979000000000000000000,
  28554150700643386504739924625811081606875217832691868357746326244019294070848066002739402354770016776125528565500000000000000000,
  32434235515184756767617463174170158693088680873286589918046124439303591544546894815194112068565518724596943082300000000000000000,
  36172496584174951613459929766311248673445282201380572436633755723977962398057854849211690202390124563075791208000000000000000000,
  39752586122531003780901380141961016591649468815683059259538445716233733928171190133165501506406783162394813360640000000000000000,
  43158848648479538268301793446503139547719377782447141703339933458552272766740814173179210412565864222368637931890000000000000000,
  46376389086505911204401848242745092548696045262895910518473748240030119169455147521565175971141144420220247236207000000000000000,
  49391137747361169604570485862004923119994023790494316999825933927681235600413395261702985819103394815511332282487800000000000000,
  52189911780057144872211941709676077721734979962032176670083157144835202283628036402259823179346279505642049740291730000000000000,
  54760472781530225957125176888504805903795366348507212958279306048822585538281107444120240572171917411845134565379679000000000000,
  57091580293231540222016605308382772910329425965246996789416953406133838026882650286920600953927286551398058947174707700000000000,
  59173040942338875976154556385741292463832351493074050470708786007578542529736209333825220144319234127196349020030839670000000000,
  60995753008739645330710578133437521181093204302015876798921845409744633138417399205213428858875978084284373092306440194000000000,
  62551746220921662640564381449953536753415843458460425318372126951547608195334139404734397012218996940992549530644095376600000000,
  63834216605717030631293779855813533482336343690685972555880503228067033359651683027493101173887838740128731652410774273690000000,
  64837556238945726702603939110806018884994752601828318803424505963001246909544739784783631460323296895346468327318382462045500000,
  65557377766549740251143002326075912281999890808733597895791239029715915700846595404019305781582753776435033460142151214365470000,
  65990533588810474533570655330498259577358277626502997889153440281023675528343915043099129227085202231784702835783771618050762900,
  66135129623655479653440354331054971195360452717931240566428719846388327103724053605758156235705041996846805077523610726503819592,
  65990533588810474533570655330498259577358277626502997889153440281023675528343915043099129227085202231784702835783771618050762900,
  65557377766549740251143002326075912281999890808733597895791239029715915700846595404019305781582753776435033460142151214365470000,
  64837556238945726702603939110806018884994752601828318803424505963001246909544739784783631460323296895346468327318382462045500000,
  63834216605717030631293779855813533482336343690685972555880503228067033359651683027493101173887838740128731652410774273690000000,
  62551746220921662640564381449953536753415843458460425318372126951547608195334139404734397012218996940992549530644095376600000000,
  60995753008739645330710578133437521181093204302015876798921845409744633138417399205213428858875978084284373092306440194000000000,
  59173040942338875976154556385741292463832351493074050470708786007578542529736209333825220144319234127196349020030839670000000000,
  57091580293231540222016605308382772910329425965246996789416953406133838026882650286920600953927286551398058947174707700000000000,
  54760472781530225957125176888504805903795366348507212958279306048822585538281107444120240572171917411845134565379679000000000000,
  52189911780057144872211941709676077721734979962032176670083157144835202283628036402259823179346279505642049740291730000000000000,
  49391137747361169604570485862004923119994023790494316999825933927681235600413395261702985819103394815511332282487800000000000000,
  46376389086505911204401848242745092548696045262895910518473748240030119169455147521565175971141144420220247236207000000000000000,
  43158848648479538268301793446503139547719377782447141703339933458552272766740814173179210412565864222368637931890000000000000000,
  39752586122531003780901380141961016591649468815683059259538445716233733928171190133165501506406783162394813360640000000000000000,
  36172496584174951613459929766311248673445282201380572436633755723977962398057854849211690202390124563075791208000000000000000000,
  32434235515184756767617463174170158693088680873286589918046124439303591544546894815194112068565518724596943082300000000000000000,
  28554150700643386504739924625811081606875217832691868357746326244019294070848066002739402354770016776125528565500000000000000000,
  24549211659658818537834157152505767137663152164831309893386866996174357273686811388474580664052048780765021979000000000000000000,
  20436938147668427642034760686255386427231049024156903703212290823235092757249188078210126811635063957446176556000000000000000000,
  16235333146433059670725687407898621015892919043975006725478882338886813466408932453221944916766573320644355617000000000000000000,
  11962848464312320963943454849948512523392908362468022532336403561299545366667784311421598119022689591866547855000000000000000000,
  7638616295848833614104356771131655504420589822565105358043170646178365325901708466463728223345832885653044504700000000000000000,
  3287453842528014883249964208336179851360622407070946160691894490763171569323710406101986448643639515854706110700000000000000000]

/-- `case 48` (Util/Gauss_Legendre_Nodes_and_Weights.hpp:5918-6162), `nodes`. -/
def nodes48 : List Int := [
  -998771007252426118600541491563113640088937650276721038612940481375458843607491700015655804998145722832311139975742666710778368610,
  -993530172266350757547928750849074118356614749594671929617151838098754618206777178629041981007665365870779472561751579966238982970,
  -984124583722826857744583600026598830589239223417384729957650167985529778000980505395131489948007823832730429894704284292848179960,
  -970591592546247250461411983800660057302433911630883706028372352165323309128491754982914753704849197551971814243078634835115697130,
  -952987703160430860722960666025718343208541331823918736863947603493945870585333587345903064001400656759306590726642872681234729460,
  -931386690706554333114174380101601267719997085618950429870604864253073042217111700481423397830857261257610780391467831472486051310,
  -905879136715569672822074835671011788312262199827410845352485425471016823120990316802103839868098102221442916931901771097536001340,
  -876572020274247885905693554805096754561648533729961992747875751874672710140389672398685521925966785214335879994824238466229758390,
  -843588261624393530711089844519656049870887011737552401514913199898841054689853744062040955376960690280695816704859193884502501520,
  -807066204029442627082553043024538445973013029460415386575862941812182154004430652858750549469321639979508472468403876478666039120,
  -767159032515740339253855437522969053622642330848207372235128588664050836807861029755502704276883040239610191301796134264873242660,
  -724034130923814654674482233493665246585092812280722362729366302573351460620089719713283575060489110457751816312048458265880017470,
  -677872379632663905211851280675909058849954679026048613071040642975494646879817410787234779026949520681001012272404115964909412280,
  -628867396776513623995164933069994652024908999790161770981732994519531913977073044000953469088003550072930061746167360004330558730,
  -577224726083972703817809238540478772853997286140195528052397399427736996334362534594908017633275835449959914200484540619773247490,
  -523160974722233033678225869137508526289187621811884107580229547219414454747347837809780219124173439699792450974289861158062887930,
  -466902904750958404544928861650798509236812104258516944181869195134794393442604111789632189952124936754095836980856002340889400030,
  -408686481990716729916225495814633286459922842994888064771150983325620538484129111687391580514289998643611473768444870947030708280,
  -348755886292160738159817937270407916134309649968392576032122967781281594068675736185795341310484716028037457642863068775826780090,
  -287362487355455576735886461316797687851558305801039778908500032168999844268762601001704292339961272995214058625810091249868879020,
  -224763790394689061224865440174692277438561804041654806164742641045181941897514232100896676983252396875773808592502081363328354620,
  -161222356068891718056437390783497694774374379741895117703242637556516342099581832766941721330407890504746928991364348486568764430,
  -97004699209462698930053955853624520152736229300936986430580765944804036262622285099333696696838482251782946732767916338280146687,
  -32380170962869362033322243152134442045962802361518092425003220017377819203382426336273560619268168240036709534934416480525333934,
  32380170962869362033322243152134442045962802361518092425003220017377819203382426336273560619268168240036709534934416480525333934,
  97004699209462698930053955853624520152736229300936986430580765944804036262622285099333696696838482251782946732767916338280146687,
  161222356068891718056437390783497694774374379741895117703242637556516342099581832766941721330407890504746928991364348486568764430,
  224763790394689061224865440174692277438561804041654806164742641045181941897514232100896676983252396875773808592502081363328354620,
  287362487355455576735886461316797687851558305801039778908500032168999844268762601001704292339961272995214058625810091249868879020,
  348755886292160738159817937270407916134309649968392576032122967781281594068675736185795341310484716028037457642863068775826780090,
  408686481990716729916225495814633286459922842994888064771150983325620538484129111687391580514289998643611473768444870947030708280,
  466902904750958404544928861650798509236812104258516944181869195134794393442604111789632189952124936754095836980856002340889400030,
  523160974722233033678225869137508526289187621811884107580229547219414454747347837809780219124173439699792450974289861158062887930,
  577224726083972703817809238540478772853997286140195528052397399427736996334362534594908017633275835449959914200484540619773247490,
  628867396776513623995164933069994652024908999790161770981732994519531913977073044000953469088003550072930061746167360004330558730,
  677872379632663905211851280675909058849954679026048613071040642975494646879817410787234779026949520681001012272404115964909412280,
  724034130923814654674482233493665246585092812280722362729366302573351460620089719713283575060489110457751816312048458265880017470,
  767159032515740339253855437522969053622642330848207372235128588664050836807861029755502704276883040239610191301796134264873242660,
  807066204029442627082553043024538445973013029460415386575862941812182154004430652858750549469321639979508472468403876478666039120,
  843588261624393530711089844519656049870887011737552401514913199898841054689853744062040955376960690280695816704859193884502501520,
  876572020274247885905693554805096754561648533729961992747875751874672710140389672398685521925966785214335879994824238466229758390,
  905879136715569672822074835671011788312262199827410845352485425471016823120990316802103839868098102221442916931901771097536001340,
  931386690706554333114174380101601267719997085618950429870604864253073042217111700481423397830857261257610780391467831472486051310,
  952987703160430860722960666025718343208541331823918736863947603493945870585333587345903064001400656759306590726642872681234729460,
  970591592546247250461411983800660057302433911630883706028372352165323309128491754982914753704849197551971814243078634835115697130,
  984124583722826857744583600026598830589239223417384729957650167985529778000980505395131489948007823832730429894704284292848179960,
  993530172266350757547928750849074118356614749594671929617151838098754618206777178629041981007665365870779472561751579966238982970,
  998771007252426118600541491563113640088937650276721038612940481375458843607491700015655804998145722832311139975742666710778368610]

/-- `case 48` (Util/Gauss_Legendre_Nodes_and_Weights.hpp:5918-6162), `weights`. -/
def weights48 : List Nat := [
  3153346052305838632677311543891487578283938831693622295209493250319586438316862442217458774047924278378683241200000000000000000,
  7327553901276262102383979621786550058707902559201353274881829548806980072502831670648037516520349298534835206000000000000000000,
  11477234579234539489592667609091628086420506308747640653766816741035036585087367184511286636197272700359361601000000000000000000,
  15579315722943848728176955834460313976376268991552469513093431052692433356199954839181605213301472111440135811000000000000000000,
  19616160457355527814460719652212709695813037734132239181120830507409246298121684044951378377444284194960983531000000000000000000,
  23570760839324379140519301378449230221729738522188598734239064864565063796391309451836775541096776163419080669000000000000000000,
  27426509708356948200073836262505820451184155161650975997280937499376501941023608023998746202792040323744947428000000000000000000,
  31167227832798088902065756846354419454285341483569535509543718861431412624243045932389967550277085468117263283100000000000000000,
  34777222564770438892548585963802410597281396907068098718006636179676723359036280142313128171963613141984663850000000000000000000,
  38241351065830706317217256523715617863823968354982288929258191034050539224109472328416059213580140179372937577800000000000000000,
  41545082943464749214058822361064797753472826034038063082734821222725825629658692970763583964401363128471534507570000000000000000,
  44674560856694280419448587125850394988462786862502008432921446339191490512302195702855070334451915972622434556277000000000000000,
  47616658492490474825906623478929830157998066743449685396769896278809885079055355892118682210180774757747109384379000000000000000,
  50359035553854474957807619087865606032994093025906330693792057246934414660248147573953693774871660247611749374924500000000000000,
  52890189485193667095505056264698914661726485633109186386491233848292762490633160697084340363438149790831785019572960000000000000,
  55199503699984162868203495191635439004450925607561000548056257930585236751457754294921400398393624593509923355532617000000000000,
  57277292100403215705150234684700576241527123004112077538849937476817454218564226433159659044197193067362153750261397900000000000,
  59114839698395635746474817433519910659655602557054998556291133485835142700480710309781628350430106714533758169545628940000000000,
  60704439165893880052969232027820477885260864256477755111511444660637894279751753620085819634771129502321701272863759817000000000,
  62039423159892663904197784137598518306383399665091461569037814502739035901616600743030165464234179212395062558132636363300000000,
  63114192286254025657126022750233318127413643371100791211147247908038119210866702715591019250622765359661030504080756048509000000,
  63924238584648186623906201825515408918974084982642999890874207499553782586112189613891351004720015479765429946485301391413100000,
  64466164435950082206504193657705065725691924455530308760558456537392353372954883169860284393187138534003017520220366768392364000,
  64737696812683922503024938736591553552081918946636510014563095523083078911265210202438858614879025778850417881714940604721365380,
  64737696812683922503024938736591553552081918946636510014563095523083078911265210202438858614879025778850417881714940604721365380,
  64466164435950082206504193657705065725691924455530308760558456537392353372954883169860284393187138534003017520220366768392364000,
  63924238584648186623906201825515408918974084982642999890874207499553782586112189613891351004720015479765429946485301391413100000,
  63114192286254025657126022750233318127413643371100791211147247908038119210866702715591019250622765359661030504080756048509000000,
  62039423159892663904197784137598518306383399665091461569037814502739035901616600743030165464234179212395062558132636363300000000,
  60704439165893880052969232027820477885260864256477755111511444660637894279751753620085819634771129502321701272863759817000000000,
  59114839698395635746474817433519910659655602557054998556291133485835142700480710309781628350430106714533758169545628940000000000,
  57277292100403215705150234684700576241527123004112077538849937476817454218564226433159659044197193067362153750261397900000000000,
  55199503699984162868203495191635439004450925607561000548056257930585236751457754294921400398393624593509923355532617000000000000,
  52890189485193667095505056264698914661726485633109186386491233848292762490633160697084340363438149790831785019572960000000000000,
  50359035553854474957807619087865606032994093025906330693792057246934414660248147573953693774871660247611749374924500000000000000,
  47616658492490474825906623478929830157998066743449685396769896278809885079055355892118682210180774757747109384379000000000000000,
  44674560856694280419448587125850394988462786862502008432921446339191490512302195702855070334451915972622434556277000000000000000,
  41545082943464749214058822361064797753472826034038063082734821222725825629658692970763583964401363128471534507570000000000000000,
  38241351065830706317217256523715617863823968354982288929258191034050539224109472328416059213580140179372937577800000000000000000,
  34777222564770438892548585963802410597281396907068098718006636179676723359036280142313128171963613141984663850000000000000000000,
  31167227832798088902065756846354419454285341483569535509543718861431412624243045932389967550277085468117263283100000000000000000,
  27426509708356948200073836262505820451184155161650975997280937499376501941023608023998746202792040323744947428000000000000000000,
  23570760839324379140519301378449230221729738522188598734239064864565063796391309451836775541096776163419080669000000000000000000,
  19616160457355527814460719652212709695813037734132239181120830507409246298121684044951378377444284194960983531000000000000000000,
  15579315722943848728176955834460313976376268991552469513093431052692433356199954839181605213301472111440135811000000000000000000,
  11477234579234539489592667609091628086420506308747640653766816741035036585087367184511286636197272700359361601000000000000000000,
  7327553901276262102383979621786550058707902559201353274881829548806980072502831670648037516520349298534835206000000000000000000,
  3153346052305838632677311543891487578283938831693622295209493250319586438316862442217458774047924278378683241200000000000000000]

/-- `case 49` (Util/Gauss_Legendre_Nodes_and_Weights.hpp:6164-6412), `nodes`. -/
def nodes49 : List Int := [
  -998820150606635379361831272704110655123680997864501964112949177302841135538551745500653689324431385531255872395947395527662273000,
  -993788661944167790760113859257953618841307394938650167604602786524630111846552088161854659422093003968557400949875382690771114360,
  -984757895914213004359298995368574710353307462145252953217216357635959063438240432898901843741443450768617694826279524243846696570,
  -971762200901555380139972421504774133497862547180905693319227418002799300357203325638366759386111579312343663427102411672208034410,
  -954853658674137233555243679668184419054694451900273791922986174053909416228440137587748122873771383478250540140148315292987546180,
  -934100294755810149058982460636544902460422952810191994407701873297932416664268109960430829388662449030037328188468441168484421420,
  -909585655828073285213019640355800071042771231116718039106844720383824753507875405533223386125359024897930926681718704376531497060,
  -881408445573008910037031535817004926159240037262391339617529183099433195955537075378460831750114933415825187151739003131787568890,
  -849682119844165701034881872242979333326604332464716248743586964459017762303226074753627811662293747476478287801757356559665375730,
  -814534427359855431539500787764777044494672135822753351736766882871034658344817491710636700601613335603177357701897237413305596130,
  -776106894345446635018142812248456071264450461829181865271034302540794672796693557703672176086240607763080264685955973696864371780,
  -734554254237402696213674212858524884652835453323701834439470986221139648163433666806885996133530515556560567259097271707888316100,
  -690043824425132113504751807274941927633505126189035750991548616396289384271473881468682696605775124162950042749729214162485345650,
  -642754832419237664056856948583900109540335472253277532541482427960041675591364522569433186228234378214678440507573752992446581560,
  -592877694108900712455864336792628534633001015318847590453510793112846164540425650266936811644577447172751955948674399032611731980,
  -540613246991726066558225467229435916924101346238365846597947990563208516612363153160458589676341792733299855717509140291462178900,
  -486171941452492042176976096058575062075115194334936605280597693918750294322732722757721438609279562487324661664635090932093574370,
  -429772993341576524658584141807423033063417897878072009843707104376033301835379761013106935621470293842322783334848166171099059570,
  -371643501262284888863734540946960527614744786733926976749868336599037226294737129285889169413082510913240415513437168940426550250,
  -312017532119748762207860676506416265096833407994387249583397336861989874038205442286818794557084321915206594520265005821046710400,
  -251135178612577273507155942824611274582984174573664251294026554204875860383237630719520972870706938553170227314815083996299729140,
  -189241592461813586485310173859986511179678877678819089344437354103923758016052459146615846583174422666080434939797554985807793460,
  -126585997269672051067985288575536190324487121066866713510968257916238433037531717026202452105478960410815605071636617625655775010,
  -63420684982686786028834820878484973152786872778880387490209138368804636548891687559832604428385645100317478492184407329150505113,
  0,
  63420684982686786028834820878484973152786872778880387490209138368804636548891687559832604428385645100317478492184407329150505113,
  126585997269672051067985288575536190324487121066866713510968257916238433037531717026202452105478960410815605071636617625655775010,
  189241592461813586485310173859986511179678877678819089344437354103923758016052459146615846583174422666080434939797554985807793460,
  251135178612577273507155942824611274582984174573664251294026554204875860383237630719520972870706938553170227314815083996299729140,
  312017532119748762207860676506416265096833407994387249583397336861989874038205442286818794557084321915206594520265005821046710400,
  371643501262284888863734540946960527614744786733926976749868336599037226294737129285889169413082510913240415513437168940426550250,
  429772993341576524658584141807423033063417897878072009843707104376033301835379761013106935621470293842322783334848166171099059570,
  486171941452492042176976096058575062075115194334936605280597693918750294322732722757721438609279562487324661664635090932093574370,
  540613246991726066558225467229435916924101346238365846597947990563208516612363153160458589676341792733299855717509140291462178900,
  592877694108900712455864336792628534633001015318847590453510793112846164540425650266936811644577447172751955948674399032611731980,
  642754832419237664056856948583900109540335472253277532541482427960041675591364522569433186228234378214678440507573752992446581560,
  690043824425132113504751807274941927633505126189035750991548616396289384271473881468682696605775124162950042749729214162485345650,
  734554254237402696213674212858524884652835453323701834439470986221139648163433666806885996133530515556560567259097271707888316100,
  776106894345446635018142812248456071264450461829181865271034302540794672796693557703672176086240607763080264685955973696864371780,
  814534427359855431539500787764777044494672135822753351736766882871034658344817491710636700601613335603177357701897237413305596130,
  849682119844165701034881872242979333326604332464716248743586964459017762303226074753627811662293747476478287801757356559665375730,
  881408445573008910037031535817004926159240037262391339617529183099433195955537075378460831750114933415825187151739003131787568890,
  909585655828073285213019640355800071042771231116718039106844720383824753507875405533223386125359024897930926681718704376531497060,
  934100294755810149058982460636544902460422952810191994407701873297932416664268109960430829388662449030037328188468441168484421420,
  954853658674137233555243679668184419054694451900273791922986174053909416228440137587748122873771383478250540140148315292987546180,
  971762200901555380139972421504774133497862547180905693319227418002799300357203325638366759386111579312343663427102411672208034410,
  984757895914213004359298995368574710353307462145252953217216357635959063438240432898901843741443450768617694826279524243846696570,
  993788661944167790760113859257953618841307394938650167604602786524630111846552088161854659422093003968557400949875382690771114360,
  998820150606635379361831272704110655123680997864501964112949177302841135538551745500653689324431385531255872395947395527662273000]

/-- `case 49` (Util/Gauss_Legendre_Nodes_and_Weights.hpp:6164-6412), `weights`. -/
def weights49 : List Nat := [
  3027278988922905077480698175827140972830042003831773385234985051177494413550675886819770126058985124870032523200000000000000000,
  7035099590086451473450678311348410862863857039027336851218397119473146899459601673263467963735801414372933655000000000000000000,
  11020551031593580497508288166833332752193560544957744962380452726071102554783082777736593747327007811350990762000000000000000000,
  14962144935624651029584319120201504036281016372767278646038147123945423564597157414736515917349310489967887090000000000000000000,
  18843595853089458444450653391107349267749902019252280311459542771879791689254752201763307107442648933270047520000000000000000000,
  22649201587446676498770964216042887326797499023264775976243888745470935326618375191653153504373799329902273534000000000000000000,
  26363618927066016960945745239742047694460971765740508227752454913592862644188001713424657570766026476923925282000000000000000000,
  29971884620583825350690558074147210062072035950876828920555743602667354678568364551611906642081795961767602805000000000000000000,
  33459466791622174342487150891689201849479867860228455593789218666390765108349559832852488043458438346918107154000000000000000000,
  36812320963000689819467236698882295001361552405982956938859100985311196406337812855520689958403167110000297023300000000000000000,
  40016945766373021368605036743103321427864607465001468493493494450265516854457831638261527245793642975485476153090000000000000000,
  43060436981259597988345484001038495806713581239821760104348474508162045713832501418039898185055242303797631088270000000000000000,
  45930539355595853542499619972127671008824322354623408676762768480350076509805178399660059754463925599065565484492000000000000000,
  48615695887828240277651197287868530881368928618593072639240635146095238303759529308914769976307848637383927427083700000000000000,
  51105094330144590674622806049318561389612449329743388914557937406644468256155178098110976702295043213913531167705710000000000000,
  53388710708258968527942933730176206165586069448227209422168248953973610507885980247912408677460067121092856290093580000000000000,
  55457349674803588690431581482698067204251524073794383758323973034904212938024301438652049445347646137087311490602856900000000000,
  57302681530187475485164592350816536350580438803119681590660443156201833093029309936939338441339096095893945407838480240000000000,
  58917275760027266024527650742492516262496113859479459794165441686240779371275871346645459309365326930987379260031264368000000000,
  60294630953152017303106116875541590497776508919725487814952045831681532953914255359728793979332186115561087641118210790800000000,
  61429200979192936296826646140301074943190009192097933721050410052945531080695352191260977688485145132793406128654023678960000000,
  62316417320057267401076825215949704224133536221320833844238519125476067013448133783783733719678916869979899479504147779363900000,
  62952707465195699474399555782891006363725427769570041372305751837625717272201644605571717333523892315477960353965822150953630000,
  63335509296491748590836927400090520147971416564825820447311176075748443524903712327954816018642416319996183739395628304279109400,
  63463281404790597718253467879529634999629522308252219185777497095409706641807671598361845883825246464279483089801915499318950579,
  63335509296491748590836927400090520147971416564825820447311176075748443524903712327954816018642416319996183739395628304279109400,
  62952707465195699474399555782891006363725427769570041372305751837625717272201644605571717333523892315477960353965822150953630000,
  62316417320057267401076825215949704224133536221320833844238519125476067013448133783783733719678916869979899479504147779363900000,
  61429200979192936296826646140301074943190009192097933721050410052945531080695352191260977688485145132793406128654023678960000000,
  60294630953152017303106116875541590497776508919725487814952045831681532953914255359728793979332186115561087641118210790800000000,
  58917275760027266024527650742492516262496113859479459794165441686240779371275871346645459309365326930987379260031264368000000000,
  57302681530187475485164592350816536350580438803119681590660443156201833093029309936939338441339096095893945407838480240000000000,
  55457349674803588690431581482698067204251524073794383758323973034904212938024301438652049445347646137087311490602856900000000000,
  53388710708258968527942933730176206165586069448227209422168248953973610507885980247912408677460067121092856290093580000000000000,
  51105094330144590674622806049318561389612449329743388914557937406644468256155178098110976702295043213913531167705710000000000000,
  48615695887828240277651197287868530881368928618593072639240635146095238303759529308914769976307848637383927427083700000000000000,
  45930539355595853542499619972127671008824322354623408676762768480350076509805178399660059754463925599065565484492000000000000000,
  43060436981259597988345484001038495806713581239821760104348474508162045713832501418039898185055242303797631088270000000000000000,
  40016945766373021368605036743103321427864607465001468493493494450265516854457831638261527245793642975485476153090000000000000000,
  36812320963000689819467236698882295001361552405982956938859100985311196406337812855520689958403167110000297023300000000000000000,
  33459466791622174342487150891689201849479867860228455593789218666390765108349559832852488043458438346918107154000000000000000000,
  29971884620583825350690558074147210062072035950876828920555743602667354678568364551611906642081795961767602805000000000000000000,
  26363618927066016960945745239742047694460971765740508227752454913592862644188001713424657570766026476923925282000000000000000000,
  22649201587446676498770964216042887326797499023264775976243888745470935326618375191653153504373799329902273534000000000000000000,
  18843595853089458444450653391107349267749902019252280311459542771879791689254752201763307107442648933270047520000000000000000000,
  14962144935624651029584319120201504036281016372767278646038147123945423564597157414736515917349310489967887090000000000000000000,
  11020551031593580497508288166833332752193560544957744962380452726071102554783082777736593747327007811350990762000000000000000000,
  7035099590086451473450678311348410862863857039027336851218397119473146899459601673263467963735801414372933655000000000000000000,
  3027278988922905077480698175827140972830042003831773385234985051177494413550675886819770126058985124870032523200000000000000000]

/-- `case 50` (Util/Gauss_Legendre_Nodes_and_Weights.hpp:6414-6668), `nodes`. -/
def nodes50 : List Int := [
  -998866404420071050185459444974218505996243512904078525177038617657539108308271960600081767630454090881621114212574624639514606280,
  -994031969432090712585108200420694728157477971068323590336524789115933310244198620084750203299748818259760660094545941995854921530,
  -985354084048005882309009625632489404015592630945405808717809221008535081470250770656793535798869308471736004877759252921197548300,
  -972864385106692073713344104606252053669173407049954201745096275225676718985816788917543914719433815625854358835651448556983675970,
  -956610955242807942997745644156622094051434124626046542855979082973055306296808939120452573210435238831293436748895418275827330470,
  -936656618944877933780874947272496602153731598095202922375054273809356131234923034418614197073816734095746044386643021855311009890,
  -913078556655791893089735642771657094784188191697782389622726553200852434010651556280247105215003414182339601899854624478788306480,
  -885967979523613048637540982466753634194290310755808362446557139654887325837407545166501175862368019557079080584439285968592763530,
  -855429769429946084611362643934757467654833039486905963438329920341318630071857644219110525736990133312196369947759076574467604840,
  -821582070859335948356254110873939537760741383343485748523374460615468665606134717992488645065128716436393879387289112541608312570,
  -784555832900399263905305196340991200847316272556444352738859121893131020393999987684713085758078251842464226061719770376659135860,
  -744494302226068538260536252682194242870187931329584578524779147932929791308869520049498109860746674724586193954835502771842126870,
  -701552468706822251089546257883655728149719228484695642740924379033292245834595296968157771841325078726136162664153259904144212900,
  -655896465685439360781624864003679819041410528382331826530934591392108478580751762464953953017870435200445272961591320272106466020,
  -607702927184950239180381796391832893604205020675994355712131188939685647683420922146586980031715422444174711826137585819527370040,
  -557158304514650054315522909625801607815898382237750261316461486760489452188732176707361298683908745534460575608482706756326635100,
  -504458144907464201651459131849141192635378678270679238182739210968226378693932598787000137183296006514821308242716698423477699130,
  -449806334974038789147131467778375817315064513465173665941480669885970853698904221487335591064427227666988784642361357448056809300,
  -393414311897565127394229253823817270246139468672656003079036620856497728124398769960686120273332991063271118506719332783443616450,
  -335500245419437356836988257291071697841218593036795761900430539710986194825331022616069495802660722680787823614792445772955843400,
  -276288193779531990327645278521130185714801587131996150613505579438376923619698102763304061623806330346613260108190459099437037970,
  -216007236876041756847284532617101333705755972510133272703621126361990193835000468744528666131929179406458045113837618464232702720,
  -154890589998145902071628620941109501201850220054937632396730326353557824832361093952729067319355620894249673393313917111154049610,
  -93174701560086140854450377639600347885671383922138614682889155646180251667429510717967219829878468890165304979206389128516190741,
  -31098338327188876112328989665949194247296222959998042974796235662030523960600456502804738475603674360934221305491693216425813119,
  31098338327188876112328989665949194247296222959998042974796235662030523960600456502804738475603674360934221305491693216425813119,
  93174701560086140854450377639600347885671383922138614682889155646180251667429510717967219829878468890165304979206389128516190741,
  154890589998145902071628620941109501201850220054937632396730326353557824832361093952729067319355620894249673393313917111154049610,
  216007236876041756847284532617101333705755972510133272703621126361990193835000468744528666131929179406458045113837618464232702720,
  276288193779531990327645278521130185714801587131996150613505579438376923619698102763304061623806330346613260108190459099437037970,
  335500245419437356836988257291071697841218593036795761900430539710986194825331022616069495802660722680787823614792445772955843400,
  393414311897565127394229253823817270246139468672656003079036620856497728124398769960686120273332991063271118506719332783443616450,
  449806334974038789147131467778375817315064513465173665941480669885970853698904221487335591064427227666988784642361357448056809300,
  504458144907464201651459131849141192635378678270679238182739210968226378693932598787000137183296006514821308242716698423477699130,
  557158304514650054315522909625801607815898382237750261316461486760489452188732176707361298683908745534460575608482706756326635100,
  607702927184950239180381796391832893604205020675994355712131188939685647683420922146586980031715422444174711826137585819527370040,
  655896465685439360781624864003679819041410528382331826530934591392108478580751762464953953017870435200445272961591320272106466020,
  701552468706822251089546257883655728149719228484695642740924379033292245834595296968157771841325078726136162664153259904144212900,
  744494302226068538260536252682194242870187931329584578524779147932929791308869520049498109860746674724586193954835502771842126870,
  784555832900399263905305196340991200847316272556444352738859121893131020393999987684713085758078251842464226061719770376659135860,
  821582070859335948356254110873939537760741383343485748523374460615468665606134717992488645065128716436393879387289112541608312570,
  855429769429946084611362643934757467654833039486905963438329920341318630071857644219110525736990133312196369947759076574467604840,
  885967979523613048637540982466753634194290310755808362446557139654887325837407545166501175862368019557079080584439285968592763530,
  913078556655791893089735642771657094784188191697782389622726553200852434010651556280247105215003414182339601899854624478788306480,
  936656618944877933780874947272496602153731598095202922375054273809356131234923034418614197073816734095746044386643021855311009890,
  956610955242807942997745644156622094051434124626046542855979082973055306296808939120452573210435238831293436748895418275827330470,
  972864385106692073713344104606252053669173407049954201745096275225676718985816788917543914719433815625854358835651448556983675970,
  985354084048005882309009625632489404015592630945405808717809221008535081470250770656793535798869308471736004877759252921197548300,
  994031969432090712585108200420694728157477971068323590336524789115933310244198620084750203299748818259760660094545941995854921530,
  998866404420071050185459444974218505996243512904078525177038617657539108308271960600081767630454090881621114212574624639514606280]

/-- `case 50` (Util/Gauss_Legendre_Nodes_and_Weights.hpp:6414-6668), `weights`. -/
def weights50 : List Nat := [
  2908622553155140958400724342855480806672996459946320618593527283550771040107537103088953474686539679671222996000000000000000000,
  6759799195745401502778878177985031801873832406466810552878705855402996794485678752756609387415321500188810542000000000000000000,
  10590548383650969263569681499241022339401819086459129456334717145649160629026857353113118028706186885786629080000000000000000000,
  14380822761485574419378908927324349937031786170587892772101622154251736563316887592904029128875082009204694730000000000000000000,
  18115560713489390351259943422354619844667317049734035426452915873362289723365910751400202180973063108815093930000000000000000000,
  21780243170124792981592069062690341227313462357934296044027139447670830221994978692528405062919036610750543990000000000000000000,
  25360673570012390440194878385442723460161259975712137339396332952037757746727527874604248564111281221094812730000000000000000000,
  28842993580535198029906373113232432517846865593537457835712623056265329664284339046627720054767399157484697580000000000000000000,
  32213728223578016648165827323003953448589058833425217158329605415911300245176463460062188525803184389503535668000000000000000000,
  35459835615146154160734611000975797096960000496984470912870450859971166530479970563064066804964023812669639438000000000000000000,
  38568756612587675244770150236385934864771705000518926510807400152266753249947479020171318147887407669699148297200000000000000000,
  41528463090147697422411978964067017808977975485840990077036977952185281006650533703389463978500065354319924794010000000000000000,
  44327504338803275492022286830394197460761298355453165663231906827622729471477282850821475453182573360805760142040000000000000000,
  46955051303948432965633013634987682514064306186052729965804279343365060719829183217725339278033304181271482663539000000000000000,
  49400938449466314921243580751432728692287050966613124792123560248069845705889393485574257611101244275880675188467400000000000000,
  51655703069581138489905295840095279649825449395439645099533186451192177308562865499955919291070998211945733531087230000000000000,
  53710621888996246523458797255664552768023213529922153045899999181596516175675679539981146389055971670639060763033358000000000000,
  55557744806212517623567425612269497595135299983902675817172778510318550714595731882063936899865838389170203468065640500000000000,
  57189925647728383723029315065993163011575372257091754936853781352804925666856383191485305132751983834326683727766239980000000000,
  58600849813222445835122436630848466209767513444025473313250342475354480050601002353491740282338773571348772216069530810000000000,
  59785058704265457509576405312585230796666042072669004585241978803619221414203277389568420163787946301926207238003146647660000000,
  60737970841770216031750015384811001609799273235403535723196774561759576517125053431218175029637426312887901909278230508056000000,
  61455899590316663756406786083915375097267575764007514309224050359059109952216967274820036443756220488580799097076302924953800000,
  61936067420683243384087509780830688572877056691244904942759706116954821286886866354187401260183933498508878427069806430996954000,
  62176616655347262321033107360613430867682469201026633101165637619757611600516149615396523425625194503519087853851464602701362420,
  62176616655347262321033107360613430867682469201026633101165637619757611600516149615396523425625194503519087853851464602701362420,
  61936067420683243384087509780830688572877056691244904942759706116954821286886866354187401260183933498508878427069806430996954000,
  61455899590316663756406786083915375097267575764007514309224050359059109952216967274820036443756220488580799097076302924953800000,
  60737970841770216031750015384811001609799273235403535723196774561759576517125053431218175029637426312887901909278230508056000000,
  59785058704265457509576405312585230796666042072669004585241978803619221414203277389568420163787946301926207238003146647660000000,
  58600849813222445835122436630848466209767513444025473313250342475354480050601002353491740282338773571348772216069530810000000000,
  57189925647728383723029315065993163011575372257091754936853781352804925666856383191485305132751983834326683727766239980000000000,
  55557744806212517623567425612269497595135299983902675817172778510318550714595731882063936899865838389170203468065640500000000000,
  53710621888996246523458797255664552768023213529922153045899999181596516175675679539981146389055971670639060763033358000000000000,
  51655703069581138489905295840095279649825449395439645099533186451192177308562865499955919291070998211945733531087230000000000000,
  49400938449466314921243580751432728692287050966613124792123560248069845705889393485574257611101244275880675188467400000000000000,
  46955051303948432965633013634987682514064306186052729965804279343365060719829183217725339278033304181271482663539000000000000000,
  44327504338803275492022286830394197460761298355453165663231906827622729471477282850821475453182573360805760142040000000000000000,
  41528463090147697422411978964067017808977975485840990077036977952185281006650533703389463978500065354319924794010000000000000000,
  38568756612587675244770150236385934864771705000518926510807400152266753249947479020171318147887407669699148297200000000000000000,
  35459835615146154160734611000975797096960000496984470912870450859971166530479970563064066804964023812669639438000000000000000000,
  32213728223578016648165827323003953448589058833425217158329605415911300245176463460062188525803184389503535668000000000000000000,
  28842993580535198029906373113232432517846865593537457835712623056265329664284339046627720054767399157484697580000000000000000000,
  25360673570012390440194878385442723460161259975712137339396332952037757746727527874604248564111281221094812730000000000000000000,
  21780243170124792981592069062690341227313462357934296044027139447670830221994978692528405062919036610750543990000000000000000000,
  18115560713489390351259943422354619844667317049734035426452915873362289723365910751400202180973063108815093930000000000000000000,
  14380822761485574419378908927324349937031786170587892772101622154251736563316887592904029128875082009204694730000000000000000000,
  10590548383650969263569681499241022339401819086459129456334717145649160629026857353113118028706186885786629080000000000000000000,
  6759799195745401502778878177985031801873832406466810552878705855402996794485678752756609387415321500188810542000000000000000000,
  2908622553155140958400724342855480806672996459946320618593527283550771040107537103088953474686539679671222996000000000000000000]

/-- `case 51` (Util/Gauss_Legendre_Nodes_and_Weights.hpp:6670-6928), `nodes`. -/
def nodes51 : List Int := [
  -998909990848903495168995877273385637084249921888188789668603207405718049553528610194285869144303060657340169152981281398000633110,
  -994261260436752574621084897949263128231784390279014997300583256510291098302328785019616182560144542180236981074530726266909290020,
  -985915991735902996583885707558309632652115778087196916746800681200167136557327790161060725407527172939300540000054594684098839940,
  -973903368019323867231755486394186639013106506315712866702074490981262705764361475540875609132455500994335519534566301281980220090,
  -958267848613908194557707038316323727612444018555868847120309457055314307784756628440390429908452610902947935352552724033440667140,
  -939067544002962383435367806390905144165163822150168440602565205214372987456816374808090326421164480353729127039408559542996732830,
  -916373862309780230823571294251475879366042671731375652904001064385502139297378154944231593819865516232883485738894168266895598450,
  -890271218029527303277795370736726893557799798870588831364659879011251164471115642429342780794040516285548220151255913337894447480,
  -860856711182292371473495743716111323577344925510962628206226223851923868244007186910464452062779814608142680853999733642016738470,
  -828239763823064832854818424016562364262387781586325260098446074945240579076442953078106693701628871137477047915389957735946201200,
  -792541712099381205234410878375875730157322463748367713704247617645439150379971194459811949185262780709467012762217049562886857580,
  -753895354485375525763960025452473987630637363814676514565720795009767566757372618164778096460643555616124138613899172090347957130,
  -712444457577036644580524855400145643036944790217248146816151994993096242045166600239011595470721596457621004021376101448242560270,
  -668343221175370086864460419403988875929608511773375995847881652864075870749404866369799959656347677674803291426595513652416302090,
  -621755704600723273755042745403315950054387566870162835676616206900472382364472355881567573126208960350690194075594899388506332290,
  -572855216351303836522394702590190907420943120723799457073625335718597748079815829359761614824500111774597777122344616930772689490,
  -521823669366185842514087784826818024569350245869358049098126929115757773378008081448033116498694740455407535733853144534040993910,
  -468850904286041063610457258811622468806722635430087579502562324249728655886797763687700860122712530346227564825268922467608365250,
  -414133983226303877936871809744657907923977170469394562797327193188812388547978173305306430578409112669881706279188491397583981070,
  -357876456688409509775201088519666356896383922095968334039155503464582961609275175785895606350436217490493872490424477968346137970,
  -300287606335331939530245649644420333331338380513049916017192749092320207191178518603178836996712134137146812073414497254942002010,
  -241581666447798703846733114869262423738793246472413577798193725775373967590548137675805585376028518061864527044307717505692930960,
  -181977026957077545323998701169214449923920116534003313190414969665563641920708924152352080695203544072294981473320236825249670360,
  -121695421018888766963820420963181108745303287484469844374711137107491247649182336398307651090553446384078822377210824627232343610,
  -60961100150578724734194706843205404697030464269519784432970423455800458736168036567925764105121793736761515289527677948413894433,
  0,
  60961100150578724734194706843205404697030464269519784432970423455800458736168036567925764105121793736761515289527677948413894433,
  121695421018888766963820420963181108745303287484469844374711137107491247649182336398307651090553446384078822377210824627232343610,
  181977026957077545323998701169214449923920116534003313190414969665563641920708924152352080695203544072294981473320236825249670360,
  241581666447798703846733114869262423738793246472413577798193725775373967590548137675805585376028518061864527044307717505692930960,
  300287606335331939530245649644420333331338380513049916017192749092320207191178518603178836996712134137146812073414497254942002010,
  357876456688409509775201088519666356896383922095968334039155503464582961609275175785895606350436217490493872490424477968346137970,
  414133983226303877936871809744657907923977170469394562797327193188812388547978173305306430578409112669881706279188491397583981070,
  468850904286041063610457258811622468806722635430087579502562324249728655886797763687700860122712530346227564825268922467608365250,
  521823669366185842514087784826818024569350245869358049098126929115757773378008081448033116498694740455407535733853144534040993910,
  572855216351303836522394702590190907420943120723799457073625335718597748079815829359761614824500111774597777122344616930772689490,
  621755704600723273755042745403315950054387566870162835676616206900472382364472355881567573126208960350690194075594899388506332290,
  668343221175370086864460419403988875929608511773375995847881652864075870749404866369799959656347677674803291426595513652416302090,
  712444457577036644580524855400145643036944790217248146816151994993096242045166600239011595470721596457621004021376101448242560270,
  753895354485375525763960025452473987630637363814676514565720795009767566757372618164778096460643555616124138613899172090347957130,
  792541712099381205234410878375875730157322463748367713704247617645439150379971194459811949185262780709467012762217049562886857580,
  828239763823064832854818424016562364262387781586325260098446074945240579076442953078106693701628871137477047915389957735946201200,
  860856711182292371473495743716111323577344925510962628206226223851923868244007186910464452062779814608142680853999733642016738470,
  890271218029527303277795370736726893557799798870588831364659879011251164471115642429342780794040516285548220151255913337894447480,
  916373862309780230823571294251475879366042671731375652904001064385502139297378154944231593819865516232883485738894168266895598450,
  939067544002962383435367806390905144165163822150168440602565205214372987456816374808090326421164480353729127039408559542996732830,
  958267848613908194557707038316323727612444018555868847120309457055314307784756628440390429908452610902947935352552724033440667140,
  973903368019323867231755486394186639013106506315712866702074490981262705764361475540875609132455500994335519534566301281980220090,
  985915991735902996583885707558309632652115778087196916746800681200167136557327790161060725407527172939300540000054594684098839940,
  994261260436752574621084897949263128231784390279014997300583256510291098302328785019616182560144542180236981074530726266909290020,
  998909990848903495168995877273385637084249921888188789668603207405718049553528610194285869144303060657340169152981281398000633110]

/-- `case 51` (Util/Gauss_Legendre_Nodes_and_Weights.hpp:6670-6928), `weights`. -/
def weights51 : List Nat := [
  2796807171089895575544216881809048224217699634011542169760713098000231114679591614367856971332714307215835996000000000000000000,
  6500337783252600292109375198537528833094943005425838785006999110819102057657281166579158637545335243512326640000000000000000000,
  10185191297821729939237591786606728385811636084212100421115085228888615965651086430978873747471615770942968610000000000000000000,
  13832634006477822296688453021856415956018552076572038548687435917166104791843662779041170097010260951454067540000000000000000000,
  17428714723401052259503646433292435568356778293618940286354216208072468282095773823758249759799207789819777820000000000000000000,
  20959988401703210579792618401514172073040485188430096096460633862719940689311359479836558902699252377069516550000000000000000000,
  24413300573781434273141565416898208743683170472028184147429999422700972885890653621262535976152308611419051180000000000000000000,
  27775798594162477195995665632208916368351248648537839576967640202613375587194529596275385756108121662388783890000000000000000000,
  31034971290160008454425502956547377296108978166217512897749254569624345663139012224239523435424305280780289412000000000000000000,
  34178693204188336236209338594767529048825863583097704745146903328802445554533906067128207370005302616346097532000000000000000000,
  37195268923260292842908275811871025134112710373737310026130804999257314780113093429658680512409392963524684163300000000000000000,
  40073476285496453186809115921395911201164331028735242051059225244795993448734094052804764524994283010006640391800000000000000000,
  42802607997880086653609514244285700837175274021852077615136520631301179546596385993734916450113268889749191567480000000000000000,
  45372511407650068748166814988437851313829956719509643587045611905313001882773166276289086795228700618654690922046000000000000000,
  47773626240623101999995353707353617340539280475657887677390108366443971846561278310990543809062470864776267301210400000000000000,
  49997020150057409779548855362005785568736749385986707491313505756712870709053599293328751603717597467932737203510800000000000000,
  52034421936697087564136447468662373215483974714382202987099793792038257683121082232136101288151627701670262414877470000000000000,
  53878252313045561434099301696971983760059967740445331680725786048586925133389164784576131217763207222661860172579928000000000000,
  55521652095738693016737059093624160780863705415596388413041209994997516290815552048334068688262450662975600790752201760000000000,
  56958507720258662100077726734277164878409450325092794465456342660607682670037852498955925024673886273774305449949505531000000000,
  58183473982592140598437877661775932667801257644544582604221244933297498326330527398947827337866346641282009193485544319800000000,
  59191993922961543783539007749154608870930046036071179481847370933640136128499431416740985267920310286670732520434771956530000000,
  59980315777503252090063987996517116173062095545433003570339303075024574001976221103210996869858516014844451358961428382305600000,
  60545506934737795138125251467754162753684934377240973387828091001593157734637476842235745052673232950242352928948686209177070000,
  60885464844856343881198614222696219728076010280273652380026502909880382084164836700304099711606511394161179403008080349836262400,
  60998924841205880159797643098356050557121801526578449813319393594203870282398761628567710384299544852248638110151783448018983640,
  60885464844856343881198614222696219728076010280273652380026502909880382084164836700304099711606511394161179403008080349836262400,
  60545506934737795138125251467754162753684934377240973387828091001593157734637476842235745052673232950242352928948686209177070000,
  59980315777503252090063987996517116173062095545433003570339303075024574001976221103210996869858516014844451358961428382305600000,
  59191993922961543783539007749154608870930046036071179481847370933640136128499431416740985267920310286670732520434771956530000000,
  58183473982592140598437877661775932667801257644544582604221244933297498326330527398947827337866346641282009193485544319800000000,
  56958507720258662100077726734277164878409450325092794465456342660607682670037852498955925024673886273774305449949505531000000000,
  55521652095738693016737059093624160780863705415596388413041209994997516290815552048334068688262450662975600790752201760000000000,
  53878252313045561434099301696971983760059967740445331680725786048586925133389164784576131217763207222661860172579928000000000000,
  52034421936697087564136447468662373215483974714382202987099793792038257683121082232136101288151627701670262414877470000000000000,
  49997020150057409779548855362005785568736749385986707491313505756712870709053599293328751603717597467932737203510800000000000000,
  47773626240623101999995353707353617340539280475657887677390108366443971846561278310990543809062470864776267301210400000000000000,
  45372511407650068748166814988437851313829956719509643587045611905313001882773166276289086795228700618654690922046000000000000000,
  42802607997880086653609514244285700837175274021852077615136520631301179546596385993734916450113268889749191567480000000000000000,
  40073476285496453186809115921395911201164331028735242051059225244795993448734094052804764524994283010006640391800000000000000000,
  37195268923260292842908275811871025134112710373737310026130804999257314780113093429658680512409392963524684163300000000000000000,
  34178693204188336236209338594767529048825863583097704745146903328802445554533906067128207370005302616346097532000000000000000000,
  31034971290160008454425502956547377296108978166217512897749254569624345663139012224239523435424305280780289412000000000000000000,
  27775798594162477195995665632208916368351248648537839576967640202613375587194529596275385756108121662388783890000000000000000000,
  24413300573781434273141565416898208743683170472028184147429999422700972885890653621262535976152308611419051180000000000000000000,
  20959988401703210579792618401514172073040485188430096096460633862719940689311359479836558902699252377069516550000000000000000000,
  17428714723401052259503646433292435568356778293618940286354216208072468282095773823758249759799207789819777820000000000000000000,
  13832634006477822296688453021856415956018552076572038548687435917166104791843662779041170097010260951454067540000000000000000000,
  10185191297821729939237591786606728385811636084212100421115085228888615965651086430978873747471615770942968610000000000000000000,
  6500337783252600292109375198537528833094943005425838785006999110819102057657281166579158637545335243512326640000000000000000000,
  2796807171089895575544216881809048224217699634011542169760713098000231114679591614367856971332714307215835996000000000000000000]

/-- `case 52` (Util/Gauss_Legendre_Nodes_and_Weights.hpp:6930-7194), `nodes`. -/
def nodes52 : List Int := [
  -998951111103950278090961440716592561278013261115357561679924840500438914297913808661494317998811899910901796967585985724788665700,
  -994477590929216029245043271799571706631911776097882171458856296558249672488911768459594584838887220760806463752283955599038738640,
  -986446195651549840645322859118397368022739035827326232797152978316591143572282984255814562906113632938497560520207869429840501990,
  -974883884221744503140706470399645554459923663945938397828443350562429804524300586307560127911452875267688480198934522218973962340,
  -959831826933086552532025153425065442787847476037677415414993973243628060152458208575639719179823132139295113572979368075136892100,
  -941343853641359056843579183850567005828765545436319199670031871895606927456196273175729202104502980555287230729339959979571084220,
  -919486128916424539893596376541881585029520272702472057186222860627307020271307555899788433541318019967967053015093577124668924160,
  -894336890534495322520844088263527555345580995562376493192698862223779161957691362536135688764579603386544528734518227932483952580,
  -865986162846067585244358517624206940898338952624290823935334545013749662028273795314485736118531282399130711339534683388065959910,
  -834535432326734534961726389621238685245936312669226053231675395375293560643788255613296330834549875761161788645331316547896068230,
  -800097283430468324334758754225807651197641858607701580587308494383192679347083582503507996165395456254687585695259834696390519920,
  -762794995193744960279211163089050840791830574507621546718647754675417224071016854197390745397257674451416360595101975934768357340,
  -722762099749983193676816676071935954783993905214720019923489268929713904111559038046510219417639399958644369853710972172964468780,
  -680141904227167702092238779736641007900996710165775915565452988760120702032835245762741428895609616813987094615720704643670580620,
  -635086977695245924298124579288809653593598988954989663203483796648206571172466746782445223879023270617376418311771200365679127490,
  -587758604979579069902025781557204223881220166538043489959784961170368850589242297197590587315400825976965202534193083463680520390,
  -538326209285827438375951167975356763823490141403080973409855633593769959321554294932975096660802525139190940490275669266493071290,
  -486966745698096077782458241346465556850455039719023687742634480428421104486866632775831198927392257326855415762764018450682273810,
  -433864067718761670309086568209780260743745852418403385819097255606594945944145534352171376348649769001370602054910134954846500470,
  -379208269116093669246681766939448880462121591351196609336012310103527330358182395292601284081975105108408193725368076280664086590,
  -323195003434807825501099066601447179054047533806579457939338732278261555798772477963724519498342837423432189872244381880022016680,
  -266024783605001827472971730598839884455924374962184668467137257208521378667471517206867197783460460926172955441290192821793977940,
  -207902264156366059686466128122345518272662810828204646935412817794608005796218738292290988023670232136683152223859888410076433530,
  -149035508606949180488634040018113570322269761888233532435570865543854155135855559983791396352631073618952673025402366837702009420,
  -89635244648900565488854691122399303169851287190198420484102629430721031214167831380425953528138253651560466954193833250331631914,
  -29914109797338766043680776070799926818843608249946981619857539391151713731961010973696889154401686499675695456464431385400531740,
  29914109797338766043680776070799926818843608249946981619857539391151713731961010973696889154401686499675695456464431385400531740,
  89635244648900565488854691122399303169851287190198420484102629430721031214167831380425953528138253651560466954193833250331631914,
  149035508606949180488634040018113570322269761888233532435570865543854155135855559983791396352631073618952673025402366837702009420,
  207902264156366059686466128122345518272662810828204646935412817794608005796218738292290988023670232136683152223859888410076433530,
  266024783605001827472971730598839884455924374962184668467137257208521378667471517206867197783460460926172955441290192821793977940,
  323195003434807825501099066601447179054047533806579457939338732278261555798772477963724519498342837423432189872244381880022016680,
  379208269116093669246681766939448880462121591351196609336012310103527330358182395292601284081975105108408193725368076280664086590,
  433864067718761670309086568209780260743745852418403385819097255606594945944145534352171376348649769001370602054910134954846500470,
  486966745698096077782458241346465556850455039719023687742634480428421104486866632775831198927392257326855415762764018450682273810,
  538326209285827438375951167975356763823490141403080973409855633593769959321554294932975096660802525139190940490275669266493071290,
  587758604979579069902025781557204223881220166538043489959784961170368850589242297197590587315400825976965202534193083463680520390,
  635086977695245924298124579288809653593598988954989663203483796648206571172466746782445223879023270617376418311771200365679127490,
  680141904227167702092238779736641007900996710165775915565452988760120702032835245762741428895609616813987094615720704643670580620,
  722762099749983193676816676071935954783993905214720019923489268929713904111559038046510219417639399958644369853710972172964468780,
  762794995193744960279211163089050840791830574507621546718647754675417224071016854197390745397257674451416360595101975934768357340,
  800097283430468324334758754225807651197641858607701580587308494383192679347083582503507996165395456254687585695259834696390519920,
  834535432326734534961726389621238685245936312669226053231675395375293560643788255613296330834549875761161788645331316547896068230,
  865986162846067585244358517624206940898338952624290823935334545013749662028273795314485736118531282399130711339534683388065959910,
  894336890534495322520844088263527555345580995562376493192698862223779161957691362536135688764579603386544528734518227932483952580,
  919486128916424539893596376541881585029520272702472057186222860627307020271307555899788433541318019967967053015093577124668924160,
  941343853641359056843579183850567005828765545436319199670031871895606927456196273175729202104502980555287230729339959979571084220,
  959831826933086552532025153425065442787847476037677415414993973243628060152458208575639719179823132139295113572979368075136892100,
  974883884221744503140706470399645554459923663945938397828443350562429804524300586307560127911452875267688480198934522218973962340,
  986446195651549840645322859118397368022739035827326232797152978316591143572282984255814562906113632938497560520207869429840501990,
  994477590929216029245043271799571706631911776097882171458856296558249672488911768459594584838887220760806463752283955599038738640,
  998951111103950278090961440716592561278013261115357561679924840500438914297913808661494317998811899910901796967585985724788665700]

/-- `case 52` (Util/Gauss_Legendre_Nodes_and_Weights.hpp:6930-7194), `weights`. -/
def weights52 : List Nat := [
  2691316950047111118952179868845218023669373761064900418770547891299001601530862746176797560564840716014405306000000000000000000,
  6255523962973276899716102169814546616411704653131259363799662353043808615501090836157045845984121823549950880000000000000000000,
  9802634579462752061951168116689502327838411857279305273504772735838515791005802583474408208569496045484767200000000000000000000,
  13315114982340960656600344477799148554676499733304391219661347430711792014526809223881640728167857999756691400000000000000000000,
  16780023396300735677921536870520162083415809163818516007139909872629477247812535265813777169847857466362463700000000000000000000,
  20184891507980792202989034209478237236712467084807820190705315302280493309301791027219450828284647141015478200000000000000000000,
  23517513553984461590322519910054609429229129002985501225429249112871044445243186195620590558306906704478677630000000000000000000,
  26765953746504013449493080286018378855261884499058287257030996437851100801566254102678465148426803788577275690000000000000000000,
  29918581147143946641282068739970887932123315510587517483479372462749341871950756024071587391803713593653937650000000000000000000,
  32964109089718797915010044778695196176727392574584348800396613830796775564448556915448263268996690899721905243000000000000000000,
  35891634835097232941942393285280738785338503065172636269394291183640433404497234581329204679907901840515667009000000000000000000,
  38690678310423978985101206740352646928078265993564586064968172329846522754921496391744210973666662651501761515700000000000000000,
  41351219500560271679040286423955162938269969315464227667459892460938078999649439101675583867419630820981051801800000000000000000,
  43863734259000407995129665578764450164160666530204815996224633924137857825927950993280615940506870334152954473600000000000000000,
  46219228372784793507645705335284639223901021626422840508031765816015160205871088721816883280983819802253843445862000000000000000,
  48409269744074896853960249286046278009749521728463397284802756276828886824159451299715117636037732283109501315701900000000000000,
  50426018566342377218211254082858754462577958765539796988683798942339300361147761333163456801664218188140256224902680000000000000,
  52262255383906993034394144426392143708199078085866984877357168051497699286259422992491364864839894248046837096696713000000000000,
  53911406932757264750836824893799959576601246959305125884818300155999886268668779576939544376503114807623779127194755300000000000,
  55367569669302652549041093451218582290154003251042023413114411811283170834312150485763713731613758714966314627381888770000000000,
  56625530902368597190808240478370150567220072814714676223988649826540809996327924387936404618158510265449897772687357618000000000,
  57680787452526827653931997663403519539439835051337584486248153174936443760587595284701126097574571469828319019913190567990000000,
  58529561771813868550290598971623693638068732742325598837321770284955818140712013763336126937634730704983876277568823876848000000,
  59168815466042970369332002394870978325417052217597879786511352459907494678782677697764340800084492224589924249542574267659200000,
  59596260171248158258310878748414953662277280381941915538580781121620122694531237045301608592412404191365596947588897033651647000,
  59810365745291860247785378811477460944480803630414062932576314749440962700756131422498670092038751273874866105822591392613280620,
  59810365745291860247785378811477460944480803630414062932576314749440962700756131422498670092038751273874866105822591392613280620,
  59596260171248158258310878748414953662277280381941915538580781121620122694531237045301608592412404191365596947588897033651647000,
  59168815466042970369332002394870978325417052217597879786511352459907494678782677697764340800084492224589924249542574267659200000,
  58529561771813868550290598971623693638068732742325598837321770284955818140712013763336126937634730704983876277568823876848000000,
  57680787452526827653931997663403519539439835051337584486248153174936443760587595284701126097574571469828319019913190567990000000,
  56625530902368597190808240478370150567220072814714676223988649826540809996327924387936404618158510265449897772687357618000000000,
  55367569669302652549041093451218582290154003251042023413114411811283170834312150485763713731613758714966314627381888770000000000,
  53911406932757264750836824893799959576601246959305125884818300155999886268668779576939544376503114807623779127194755300000000000,
  52262255383906993034394144426392143708199078085866984877357168051497699286259422992491364864839894248046837096696713000000000000,
  50426018566342377218211254082858754462577958765539796988683798942339300361147761333163456801664218188140256224902680000000000000,
  48409269744074896853960249286046278009749521728463397284802756276828886824159451299715117636037732283109501315701900000000000000,
  46219228372784793507645705335284639223901021626422840508031765816015160205871088721816883280983819802253843445862000000000000000,
  43863734259000407995129665578764450164160666530204815996224633924137857825927950993280615940506870334152954473600000000000000000,
  41351219500560271679040286423955162938269969315464227667459892460938078999649439101675583867419630820981051801800000000000000000,
  38690678310423978985101206740352646928078265993564586064968172329846522754921496391744210973666662651501761515700000000000000000,
  35891634835097232941942393285280738785338503065172636269394291183640433404497234581329204679907901840515667009000000000000000000,
  32964109089718797915010044778695196176727392574584348800396613830796775564448556915448263268996690899721905243000000000000000000,
  29918581147143946641282068739970887932123315510587517483479372462749341871950756024071587391803713593653937650000000000000000000,
  26765953746504013449493080286018378855261884499058287257030996437851100801566254102678465148426803788577275690000000000000000000,
  23517513553984461590322519910054609429229129002985501225429249112871044445243186195620590558306906704478677630000000000000000000,
  20184891507980792202989034209478237236712467084807820190705315302280493309301791027219450828284647141015478200000000000000000000,
  16780023396300735677921536870520162083415809163818516007139909872629477247812535265813777169847857466362463700000000000000000000,
  13315114982340960656600344477799148554676499733304391219661347430711792014526809223881640728167857999756691400000000000000000000,
  9802634579462752061951168116689502327838411857279305273504772735838515791005802583474408208569496045484767200000000000000000000,
  6255523962973276899716102169814546616411704653131259363799662353043808615501090836157045845984121823549950880000000000000000000,
  2691316950047111118952179868845218023669373761064900418770547891299001601530862746176797560564840716014405306000000000000000000]

/-- `case 53` (Util/Gauss_Legendre_Nodes_and_Weights.hpp:7196-7464), `nodes`. -/
def nodes53 : List Int := [
  -998989947776328227121054267032199522587309515651732544348317493127257364599773549343553198383457011091686823780344095844043755810,
  -994681919308007078636035893483993904182826594387975160830734431642660750594721736313630484033773895547694006928504971765465070120,
  -986947035023371521720373081310578188412199510179296257806322379857638236619420321418096105855144959024117109582837805357754954460,
  -975810233714984581632983858106362093512798003573911896850873740234626179386668954353471998709121582342655290223580919398664553150,
  -961309694623136332369858193682639747050422671972138000395706357071498086905607702964422919338060035464164153350093210624175605550,
  -943495353464441879021070667696192775681857500148015664772339051854728758550363092712137814757523904928088830560624732861622874810,
  -922428603042812128267819100082516551349942542412314707484045794747213447278940531162806953512469757319872842742369993518376071640,
  -898182057875426625925520029973081195567045739001750681682503971974645309333522186786392913863337525782667158931605838820173624870,
  -870839297558241351601700086888594089821280167981174041092867887860046830059383974198055656459376063650011043243403246513535961260,
  -840494576545801375430127509829946796899962493735098168549522961405891057638198045441410693070320989951577974370943705506700119680,
  -807252498416895478220485638025907210177632560655530225966224604076884193127380027078439077083342473640565500200695753917347160250,
  -771227654925532307866035875626039741261354413619946771648884187743952526883188230586092422290944893325818824697600796502636216520,
  -732544230807510253782135586721750231565633273760669310128169956327692973060434124170255033880948891570128302297345895089896698480,
  -691335575601366723540748823138944565415495376404183950724709140909112354941383990141572260845105081172363517610726379705681219110,
  -647743743916510068751106189938633421813560044836402241687697297908765651358401886761817144299366163154472818800908095997611950560,
  -601919005713769327464294371964623613092953365731746375443934096606893307533767310788773962485301783461530874433971276908514492980,
  -554019328277067881014734990810049287255760837824321593966071493474768457025535643879665595062818357282451726014649085682655291570,
  -504209831657133437039116972887958033395462227703774725833224028742602605451965938591024673860595150469942941905527500724251811520,
  -452662219461845791383144760753315883620479588499372560725379469664934440264885496827225757378505404397522562253557852105019307760,
  -399554186953952977392563136238397571894511656706946257188507504059581234018478032361233172320479733304059712066982890613140032250,
  -345068808495722356694310646069500914856093345832935450910783654847209725743952773529252176953919006024630143459578817848683276880,
  -289393906451626206426547006594012767796057401466450231449786866343367755369982886228727931629100090448155706547827397075079882320,
  -232721403724272593643363642199916218526209311521638329063949268648194216013247988284006913345435290656637765639600489364965084330,
  -175246662155325750729791009132895245828916149942189114530018604941820209518305889520930111215256032166733235851129732021023311890,
  -117167809071955150140256808779323767923321052344431878962589591313772049948066298024398635169533238250973261957072592333175838110,
  -58685054300259465022711945833231537735591283902644238257778180377457643100509915496053803689901753941032900219838882066372727596,
  0,
  58685054300259465022711945833231537735591283902644238257778180377457643100509915496053803689901753941032900219838882066372727596,
  117167809071955150140256808779323767923321052344431878962589591313772049948066298024398635169533238250973261957072592333175838110,
  175246662155325750729791009132895245828916149942189114530018604941820209518305889520930111215256032166733235851129732021023311890,
  232721403724272593643363642199916218526209311521638329063949268648194216013247988284006913345435290656637765639600489364965084330,
  289393906451626206426547006594012767796057401466450231449786866343367755369982886228727931629100090448155706547827397075079882320,
  345068808495722356694310646069500914856093345832935450910783654847209725743952773529252176953919006024630143459578817848683276880,
  399554186953952977392563136238397571894511656706946257188507504059581234018478032361233172320479733304059712066982890613140032250,
  452662219461845791383144760753315883620479588499372560725379469664934440264885496827225757378505404397522562253557852105019307760,
  504209831657133437039116972887958033395462227703774725833224028742602605451965938591024673860595150469942941905527500724251811520,
  554019328277067881014734990810049287255760837824321593966071493474768457025535643879665595062818357282451726014649085682655291570,
  601919005713769327464294371964623613092953365731746375443934096606893307533767310788773962485301783461530874433971276908514492980,
  647743743916510068751106189938633421813560044836402241687697297908765651358401886761817144299366163154472818800908095997611950560,
  691335575601366723540748823138944565415495376404183950724709140909112354941383990141572260845105081172363517610726379705681219110,
  732544230807510253782135586721750231565633273760669310128169956327692973060434124170255033880948891570128302297345895089896698480,
  771227654925532307866035875626039741261354413619946771648884187743952526883188230586092422290944893325818824697600796502636216520,
  807252498416895478220485638025907210177632560655530225966224604076884193127380027078439077083342473640565500200695753917347160250,
  840494576545801375430127509829946796899962493735098168549522961405891057638198045441410693070320989951577974370943705506700119680,
  870839297558241351601700086888594089821280167981174041092867887860046830059383974198055656459376063650011043243403246513535961260,
  898182057875426625925520029973081195567045739001750681682503971974645309333522186786392913863337525782667158931605838820173624870,
  922428603042812128267819100082516551349942542412314707484045794747213447278940531162806953512469757319872842742369993518376071640,
  943495353464441879021070667696192775681857500148015664772339051854728758550363092712137814757523904928088830560624732861622874810,
  961309694623136332369858193682639747050422671972138000395706357071498086905607702964422919338060035464164153350093210624175605550,
  975810233714984581632983858106362093512798003573911896850873740234626179386668954353471998709121582342655290223580919398664553150,
  986947035023371521720373081310578188412199510179296257806322379857638236619420321418096105855144959024117109582837805357754954460,
  994681919308007078636035893483993904182826594387975160830734431642660750594721736313630484033773895547694006928504971765465070120,
  998989947776328227121054267032199522587309515651732544348317493127257364599773549343553198383457011091686823780344095844043755810]

/-- `case 53` (Util/Gauss_Legendre_Nodes_and_Weights.hpp:7196-7464), `weights`. -/
def weights53 : List Nat := [
  2591683720567031811599239438510930984762997693022769675376500381051634005224126250214233609686077648169836030000000000000000000,
  6024276226948673281241706816299859100954152074484417558917106440473600033909323324715945456767035044270280900000000000000000000,
  9441202284940344386662178820325143283707814914046810927337337185355374472826652623109945806261182839660554000000000000000000000,
  12826026144240379179150182969203731768164008734553104246618342723293194731242250670761933608303811873280247300000000000000000000,
  16166725256687463928060828404039901437734731397019180473139148190205324180937516142534453540548299258749739400000000000000000000,
  19451721107636895388046922227496940419447364716493667107973462234800578399388633666476086932145745743505332400000000000000000000,
  22669673057070208398789275239827809468248807805116784496382060897637846896710706461218815058781934910224938800000000000000000000,
  25809482510757517713961888166629440903750418442265503622918773730013797742844086605805538163787429789537743680000000000000000000,
  28860323617823736262799553043583261862669206289848527315810981320802632341802310808092984248294401382025302850000000000000000000,
  31811678459019323063235862031080920260680070087043284446190582082326418151970673649614903585273915393478290590000000000000000000,
  34653372583534237958387720513010713571317935430580936033741288252157220184334926551657969724683287719185330549000000000000000000,
  37375609803482915674171972785394222209848094372518558551452768884099825380676440609236279863823497095693443216000000000000000000,
  39969005843540382127093545787863625919008463374964865470308834538798067584804261739458222529347732810673889515200000000000000000,
  42424620634520013592281637568450398806564207975423007268497165312733739074989155062136324198195271063479769718960000000000000000,
  44733989103672810212765645918563606137601883717147900841856522905048311704801982927984508769705857929808578598330000000000000000,
  46889150340750314021872639565104947865825535833303626150450615558318213727262020969002437777595396642365903489607000000000000000,
  48882675032699140420448407583584083406584514646268292875559463523688547688503681759759600742800157981242349154202400000000000000,
  50707691069292715296485482634530537599990373336593814740704760697162114294312900297237890292901409072571190207583550000000000000,
  52357907229872718199701520989360704454419708697215683637553813716094391393337714985316126054520787886975126972106738000000000000,
  53827634868731029042081441635402674312810199678912020257265940020359271435099478429485505876235483865621873059272217880000000000,
  55111807523933599002349704765867387551412488489826622066731356451534340828803804909719115831013539211438419507392368240000000000,
  56205998381739709808655062091444993751457225174803641812153196144883399100500033051738443749034492455825082393693810333800000000,
  57106435536267191773383339298418841338834495424613061729587587424397428471906170077479542577413259620426790067991657155710000000,
  57810014991713196319683076097252062860029011238475864959321384717802128191668653487008668679969550449955994225403325679445900000,
  58314311362256007556275756337697256052079951244254735672598950754466187833964693783635661402626535131963492999962531502419780000,
  58617586232720263318071937049988941534599480662276986930328196838319255643441907343204933675508903747958731504639296018150449400,
  58718794151164364525486944442134126274993717097852662262447718148354313009471787626787856489550006863823537717995878406352200698,
  58617586232720263318071937049988941534599480662276986930328196838319255643441907343204933675508903747958731504639296018150449400,
  58314311362256007556275756337697256052079951244254735672598950754466187833964693783635661402626535131963492999962531502419780000,
  57810014991713196319683076097252062860029011238475864959321384717802128191668653487008668679969550449955994225403325679445900000,
  57106435536267191773383339298418841338834495424613061729587587424397428471906170077479542577413259620426790067991657155710000000,
  56205998381739709808655062091444993751457225174803641812153196144883399100500033051738443749034492455825082393693810333800000000,
  55111807523933599002349704765867387551412488489826622066731356451534340828803804909719115831013539211438419507392368240000000000,
  53827634868731029042081441635402674312810199678912020257265940020359271435099478429485505876235483865621873059272217880000000000,
  52357907229872718199701520989360704454419708697215683637553813716094391393337714985316126054520787886975126972106738000000000000,
  50707691069292715296485482634530537599990373336593814740704760697162114294312900297237890292901409072571190207583550000000000000,
  48882675032699140420448407583584083406584514646268292875559463523688547688503681759759600742800157981242349154202400000000000000,
  46889150340750314021872639565104947865825535833303626150450615558318213727262020969002437777595396642365903489607000000000000000,
  44733989103672810212765645918563606137601883717147900841856522905048311704801982927984508769705857929808578598330000000000000000,
  42424620634520013592281637568450398806564207975423007268497165312733739074989155062136324198195271063479769718960000000000000000,
  39969005843540382127093545787863625919008463374964865470308834538798067584804261739458222529347732810673889515200000000000000000,
  37375609803482915674171972785394222209848094372518558551452768884099825380676440609236279863823497095693443216000000000000000000,
  34653372583534237958387720513010713571317935430580936033741288252157220184334926551657969724683287719185330549000000000000000000,
  31811678459019323063235862031080920260680070087043284446190582082326418151970673649614903585273915393478290590000000000000000000,
  28860323617823736262799553043583261862669206289848527315810981320802632341802310808092984248294401382025302850000000000000000000,
  25809482510757517713961888166629440903750418442265503622918773730013797742844086605805538163787429789537743680000000000000000000,
  22669673057070208398789275239827809468248807805116784496382060897637846896710706461218815058781934910224938800000000000000000000,
  19451721107636895388046922227496940419447364716493667107973462234800578399388633666476086932145745743505332400000000000000000000,
  16166725256687463928060828404039901437734731397019180473139148190205324180937516142534453540548299258749739400000000000000000000,
  12826026144240379179150182969203731768164008734553104246618342723293194731242250670761933608303811873280247300000000000000000000,
  9441202284940344386662178820325143283707814914046810927337337185355374472826652623109945806261182839660554000000000000000000000,
  6024276226948673281241706816299859100954152074484417558917106440473600033909323324715945456767035044270280900000000000000000000,
  2591683720567031811599239438510930984762997693022769675376500381051634005224126250214233609686077648169836030000000000000000000]

/-- `case 54` (Util/Gauss_Legendre_Nodes_and_Weights.hpp:7466-7740), `nodes`. -/
def nodes54 : List Int := [
  -999026666867340983851071106983958493198042785796960331681650214754090637405791834604685013484837737658171747997153144151975587540,
  -994875117018338884918889995948702659484126758886999828616156681850144799447745308305731375440745288673944607541475935596437825780,
  -987420637397343558552145720403546261534036290839238587751141038167130874141189764935915791648200746048109554350992911978050095730,
  -976686328857903237200010071988306857467805973240003412024372029323157809784272386864476422976560492305375088618748774431740365630,
  -962707645785923583256993926905389943536918174702037570362546454757258269125206237875884965049900299802952354964275819827902586250,
  -945530975164995853763837022906180412563436588500986406762217458902132656390984923816851025710195693512573244963513894686023975260,
  -925213359866651486256276060479791386855584193566834244068071008930769700982940457058828542434852128029476459868128064001967046060,
  -901822286284701580757467231388427964363928404788918474280036036513356073622533886908582169299582838965798796339398525863561915710,
  -875435454065568939417909335722610822486547484807016172040366910820270935679797321058698568462529656410624059171342251769943318270,
  -846140515970772949425887510872842500396632380214141657395201348398757989076416700248772269351896533255303885953220294402002974300,
  -814034785913567835469638304075198944827590183233613975493755308800171340290226923648179791255541634274548553954176551605151360690,
  -779224915346254021535948614840532655748889094829050259108367995573274033869696584915109781548435952444378392151166872648234378660,
  -741826538809184316285766268753578000939729144982815603040738027981058677623106129820404480042315813228432030032242333558092866880,
  -701963889719172919385570976969670601268811110489679439078934378176863283367393721505533143969711877081322245602992398209064650880,
  -659769387631983124692289822856220474788958248594975048667445727738159383006544474512710104177739065996133885410036776838367488030,
  -615383198331127370729937820161728300595972694129498622190509649939772543783158161254321920732452953554480242292987282541897006640,
  -568952768195209429731624834177153942773841437174211618670572685959557118230395173166214021417101017524852275556783221312351005900,
  -520632334385933073327017138749764118879366855250879220453046277499362180650014396701570312929490093403401546883567630069332505720,
  -470582412481382283683212136327742602431446639814420043915728026075384958936410220136770948999155412262334524915958705459498961920,
  -418969263255204528036102697462510005200790183425047582730989157557009271101032739901500276861455539781137654784208883187556873300,
  -365964340372191181984332108165487406122037389703641599616564131886259444667909392835143280755655644585846339588867310094390539570,
  -311743720834468228882550390152123771392948497110182017019173178476006917845286386130909828191094740421534089085255102804619954620,
  -256487520069997300077411214453008302726921873090774152487942523175999037501373821485616890944767465903929939092464594692676836200,
  -200379293606213569778602462829298030454143186091550918753566758884459396758905976775222502760618606894418844662715448837338120410,
  -143605427316256153947089762898789161294705016260067741234525260117643506637380825804147638738792038938628407415403678376533018140,
  -86354518263248215285443177768749636369401537487063587948029992247873907240155628310881822615009050336866377601582800793691334121,
  -28816748199341777656235847500227052989454542177907848371495239012965236540740536685855687174817192649649607187224797099888117694,
  28816748199341777656235847500227052989454542177907848371495239012965236540740536685855687174817192649649607187224797099888117694,
  86354518263248215285443177768749636369401537487063587948029992247873907240155628310881822615009050336866377601582800793691334121,
  143605427316256153947089762898789161294705016260067741234525260117643506637380825804147638738792038938628407415403678376533018140,
  200379293606213569778602462829298030454143186091550918753566758884459396758905976775222502760618606894418844662715448837338120410,
  256487520069997300077411214453008302726921873090774152487942523175999037501373821485616890944767465903929939092464594692676836200,
  311743720834468228882550390152123771392948497110182017019173178476006917845286386130909828191094740421534089085255102804619954620,
  365964340372191181984332108165487406122037389703641599616564131886259444667909392835143280755655644585846339588867310094390539570,
  418969263255204528036102697462510005200790183425047582730989157557009271101032739901500276861455539781137654784208883187556873300,
  470582412481382283683212136327742602431446639814420043915728026075384958936410220136770948999155412262334524915958705459498961920,
  520632334385933073327017138749764118879366855250879220453046277499362180650014396701570312929490093403401546883567630069332505720,
  568952768195209429731624834177153942773841437174211618670572685959557118230395173166214021417101017524852275556783221312351005900,
  615383198331127370729937820161728300595972694129498622190509649939772543783158161254321920732452953554480242292987282541897006640,
  659769387631983124692289822856220474788958248594975048667445727738159383006544474512710104177739065996133885410036776838367488030,
  701963889719172919385570976969670601268811110489679439078934378176863283367393721505533143969711877081322245602992398209064650880,
  741826538809184316285766268753578000939729144982815603040738027981058677623106129820404480042315813228432030032242333558092866880,
  779224915346254021535948614840532655748889094829050259108367995573274033869696584915109781548435952444378392151166872648234378660,
  814034785913567835469638304075198944827590183233613975493755308800171340290226923648179791255541634274548553954176551605151360690,
  846140515970772949425887510872842500396632380214141657395201348398757989076416700248772269351896533255303885953220294402002974300,
  875435454065568939417909335722610822486547484807016172040366910820270935679797321058698568462529656410624059171342251769943318270,
  901822286284701580757467231388427964363928404788918474280036036513356073622533886908582169299582838965798796339398525863561915710,
  925213359866651486256276060479791386855584193566834244068071008930769700982940457058828542434852128029476459868128064001967046060,
  945530975164995853763837022906180412563436588500986406762217458902132656390984923816851025710195693512573244963513894686023975260,
  962707645785923583256993926905389943536918174702037570362546454757258269125206237875884965049900299802952354964275819827902586250,
  976686328857903237200010071988306857467805973240003412024372029323157809784272386864476422976560492305375088618748774431740365630,
  987420637397343558552145720403546261534036290839238587751141038167130874141189764935915791648200746048109554350992911978050095730,
  994875117018338884918889995948702659484126758886999828616156681850144799447745308305731375440745288673944607541475935596437825780,
  999026666867340983851071106983958493198042785796960331681650214754090637405791834604685013484837737658171747997153144151975587540]

/-- `case 54` (Util/Gauss_Legendre_Nodes_and_Weights.hpp:7466-7740), `weights`. -/
def weights54 : List Nat := [
  2497481835761585775946038757266029879185097466827111942096599327112425390017023913210606103983769106614066920000000000000000000,
  5805611015239984878825887745875273411524651989403666789339141554644182353892305839599675517311682864747666100000000000000000000,
  9099369455509396948033521062419261721874722407982180207541117308351861308804733794753010953301836573110283800000000000000000000,
  12363328128847644166467824260188096463994498948433693042056983668958037046600756123205810923212853147254802700000000000000000000,
  15586303035924131702968909705836765468587822357639896201316671344878585820164598293920421255569901500209570200000000000000000000,
  18757527621469377912007984284071162688635574742711342797955298563699126332036461329714310808148590066508190600000000000000000000,
  21866451422853085945510426538879300981570316562972442067884306672283675685377206557001935578870043533747999500000000000000000000,
  24902741467208773050054971273389042575623132879123360353465385421758316904456860869209102346047536730862458300000000000000000000,
  27856309310595870287002034763915151237309935625742696555013264213082076506411441596315277906460369738195833900000000000000000000,
  30717342497870676054004609916154911019962212077160465490329003245225752643022838628479309192939420230078180050000000000000000000,
  33476336464372645716040444835610792714878607423683772964337167620071343517433854406420333229414312728085296770000000000000000000,
  36124125840383552582887074207424845978573079930167329889156643495459296238900571523050757461060135302139865195000000000000000000,
  38651914782102516836857139051579876239011509355728554037268632512896158577502268299742229632513722338293524373400000000000000000,
  41051306136644974221718210877604334193782797446454688754617787825071171987958050916570023615246254169626552123300000000000000000,
  43314329309597015441925760370508118196289124043849688650209279495578625248297771992139039277057264568835540076000000000000000000,
  45433466728276713974852180751544571533775639017671081514660013113472865590373825057620360047099180455867260571490000000000000000,
  47401678806444991058576410115323603638206588983250608820031389120594444085814243801879794557243784636234857730221700000000000000,
  49212427324528886068790630368811628077504112980062681634638606511317505326053589870063710155609080232121169649480550000000000000,
  50859697146188144319709206976118745912060265389331714771832193259155779810593370931798605896880928993147055549539975000000000000,
  52338016198298744665588694752685013180431766973468102881837349231618715684658623339847903618289159470534877894960372300000000000,
  53642473647553611272100627725246576862815859608565439888321532237098666278511554143884997239954023576687291267811993970000000000,
  54768736213057986306222634717109020724621066562355048635866195785269968521908382362156392475415821126946462901711947871000000000,
  55713062560589987683369817427371110684711717115798477869633427472597373258728896628776338025267604790420519818846307235960000000,
  56472315730625965031044264681761247953737362127083642341635370625931136980817168966851602086248513467440381128993342984963000000,
  57043973558794598567828434254227212099211736212546353903343589906328426475669861105088923393965627005662457501550344975594000000,
  57426137054112114859290131773206829389219057050425385709668844200964810457895235045800715956988846533085083823400814577788088000,
  57617536707147024672376128805871477172901744721560572285944206266579671968098504662898812745899737113542751603808317247600546730,
  57617536707147024672376128805871477172901744721560572285944206266579671968098504662898812745899737113542751603808317247600546730,
  57426137054112114859290131773206829389219057050425385709668844200964810457895235045800715956988846533085083823400814577788088000,
  57043973558794598567828434254227212099211736212546353903343589906328426475669861105088923393965627005662457501550344975594000000,
  56472315730625965031044264681761247953737362127083642341635370625931136980817168966851602086248513467440381128993342984963000000,
  55713062560589987683369817427371110684711717115798477869633427472597373258728896628776338025267604790420519818846307235960000000,
  54768736213057986306222634717109020724621066562355048635866195785269968521908382362156392475415821126946462901711947871000000000,
  53642473647553611272100627725246576862815859608565439888321532237098666278511554143884997239954023576687291267811993970000000000,
  52338016198298744665588694752685013180431766973468102881837349231618715684658623339847903618289159470534877894960372300000000000,
  50859697146188144319709206976118745912060265389331714771832193259155779810593370931798605896880928993147055549539975000000000000,
  49212427324528886068790630368811628077504112980062681634638606511317505326053589870063710155609080232121169649480550000000000000,
  47401678806444991058576410115323603638206588983250608820031389120594444085814243801879794557243784636234857730221700000000000000,
  45433466728276713974852180751544571533775639017671081514660013113472865590373825057620360047099180455867260571490000000000000000,
  43314329309597015441925760370508118196289124043849688650209279495578625248297771992139039277057264568835540076000000000000000000,
  41051306136644974221718210877604334193782797446454688754617787825071171987958050916570023615246254169626552123300000000000000000,
  38651914782102516836857139051579876239011509355728554037268632512896158577502268299742229632513722338293524373400000000000000000,
  36124125840383552582887074207424845978573079930167329889156643495459296238900571523050757461060135302139865195000000000000000000,
  33476336464372645716040444835610792714878607423683772964337167620071343517433854406420333229414312728085296770000000000000000000,
  30717342497870676054004609916154911019962212077160465490329003245225752643022838628479309192939420230078180050000000000000000000,
  27856309310595870287002034763915151237309935625742696555013264213082076506411441596315277906460369738195833900000000000000000000,
  24902741467208773050054971273389042575623132879123360353465385421758316904456860869209102346047536730862458300000000000000000000,
  21866451422853085945510426538879300981570316562972442067884306672283675685377206557001935578870043533747999500000000000000000000,
  18757527621469377912007984284071162688635574742711342797955298563699126332036461329714310808148590066508190600000000000000000000,
  15586303035924131702968909705836765468587822357639896201316671344878585820164598293920421255569901500209570200000000000000000000,
  12363328128847644166467824260188096463994498948433693042056983668958037046600756123205810923212853147254802700000000000000000000,
  9099369455509396948033521062419261721874722407982180207541117308351861308804733794753010953301836573110283800000000000000000000,
  5805611015239984878825887745875273411524651989403666789339141554644182353892305839599675517311682864747666100000000000000000000,
  2497481835761585775946038757266029879185097466827111942096599327112425390017023913210606103983769106614066920000000000000000000]

/-- `case 55` (Util/Gauss_Legendre_Nodes_and_Weights.hpp:7742-8020), `nodes`. -/
def nodes55 : List Int := [
  -999061419564818541479431839519384423155541278929420157332401684710972505670225533327081976133094140768408191534042026313450827440,
  -995057977847411875043189116506202371594100746405392249986350060413537979300314618148395439596354415626209551992823298289783539240,
  -987868941198889198522385684473473530648601555056486429925828796307557579621016637053233578519735936888683360787790337368952031980,
  -977515735503989208859216606340730211542135462755569800887691889400365350611597494694176881609607469273242785656507509182697425110,
  -964031328593135198778536631377369222637489674164126656070295272191919335828457215663854918457738690882034846902852560974268951530,
  -947458868041210741859979847645291837175186326297240787163726085515181658590346993269221942510806293158025439252891868526434619640,
  -927851424720791696816271269232586379194499280569601183966709936937935555379821097167364850107136493058221222320454637369614282910,
  -905271800744000025781911424629624392227608588470290593135517958275349931816677918189050665464477944515815751876893485640253755130,
  -879792322419895506067590906824086395299913621625734476599972253009227785022729533359813698375616754715006749235828126733739624490,
  -851494606617154471460245320967007027816463989402732401544489647049379296095464351554652991995479703217560735307503859239398403470,
  -820469298559320912454241285034722365392967480105130606229317022384911682681523216257441484270088783628423774725130581966800161070,
  -786815781127622365897636250938041383509091146272250529488564469587510403753740589619601226390870705370432925972892749064573821010,
  -750641856348021908674987682707310917922063464462257535369235345505145720740680120960054973784526799194720852464423772388919673060,
  -712063399986637838909350192121167515172653723145173513673721634239734412747554448903565671922192000982956738266266297511162648690,
  -671203990319826395796326728006015600573927277436610606914264065771820523869827555042455189447674181133805247142521518243531227440,
  -628194512249928140090636215032975432911010309006757968424233595656026568460576012069027393046789128852058259633647682013920333350,
  -583172738026032102974304815587686486221861136254785673905082180025960383369348998025007232863673489829263357750488285247203245610,
  -536282885908343296720599572843597553538275608838743915014590760235582920279839968578129271696273497955591741071024196460130301630,
  -487675158187474097208263673539355611507554019569348864246251835420857278659483974984809656337699383483522061591078394779199761440,
  -437505260037174591808481024297466584242516289220592544658594170149549927693177773461165876599876273100552666454836237099856269020,
  -385933900740979429755848543912589975450407086515743055671026672213958905159141126592971399771103619800981882903256205240075095450,
  -333126278890023885189471490232961963047398261922712874436199911280118398290793783254706582863910870940935639573528679327822219390,
  -279251553200806538549862451175671025558185946282972634607545440139102504718076287265726885741210201817839096214490074817148560700,
  -224482300647845483400189062402926454408117004708952060337664192527335613612572096711560755308457123189505944558518654797232559190,
  -168993963646873208282842493511702229345893529573876110764975838915317028081010971614203017482998461467333854472083710567254780040,
  -112964288059329266588437923888712184012038893009333007148827534262082093875755652596209649152291091955452847474224119472474169660,
  -56572753818336776327337610893108434162675742452312183663194467925877666352879306345258083970503442691690453051582529660336598011,
  0,
  56572753818336776327337610893108434162675742452312183663194467925877666352879306345258083970503442691690453051582529660336598011,
  112964288059329266588437923888712184012038893009333007148827534262082093875755652596209649152291091955452847474224119472474169660,
  168993963646873208282842493511702229345893529573876110764975838915317028081010971614203017482998461467333854472083710567254780040,
  224482300647845483400189062402926454408117004708952060337664192527335613612572096711560755308457123189505944558518654797232559190,
  279251553200806538549862451175671025558185946282972634607545440139102504718076287265726885741210201817839096214490074817148560700,
  333126278890023885189471490232961963047398261922712874436199911280118398290793783254706582863910870940935639573528679327822219390,
  385933900740979429755848543912589975450407086515743055671026672213958905159141126592971399771103619800981882903256205240075095450,
  437505260037174591808481024297466584242516289220592544658594170149549927693177773461165876599876273100552666454836237099856269020,
  487675158187474097208263673539355611507554019569348864246251835420857278659483974984809656337699383483522061591078394779199761440,
  536282885908343296720599572843597553538275608838743915014590760235582920279839968578129271696273497955591741071024196460130301630,
  583172738026032102974304815587686486221861136254785673905082180025960383369348998025007232863673489829263357750488285247203245610,
  628194512249928140090636215032975432911010309006757968424233595656026568460576012069027393046789128852058259633647682013920333350,
  671203990319826395796326728006015600573927277436610606914264065771820523869827555042455189447674181133805247142521518243531227440,
  712063399986637838909350192121167515172653723145173513673721634239734412747554448903565671922192000982956738266266297511162648690,
  750641856348021908674987682707310917922063464462257535369235345505145720740680120960054973784526799194720852464423772388919673060,
  786815781127622365897636250938041383509091146272250529488564469587510403753740589619601226390870705370432925972892749064573821010,
  820469298559320912454241285034722365392967480105130606229317022384911682681523216257441484270088783628423774725130581966800161070,
  851494606617154471460245320967007027816463989402732401544489647049379296095464351554652991995479703217560735307503859239398403470,
  879792322419895506067590906824086395299913621625734476599972253009227785022729533359813698375616754715006749235828126733739624490,
  905271800744000025781911424629624392227608588470290593135517958275349931816677918189050665464477944515815751876893485640253755130,
  927851424720791696816271269232586379194499280569601183966709936937935555379821097167364850107136493058221222320454637369614282910,
  947458868041210741859979847645291837175186326297240787163726085515181658590346993269221942510806293158025439252891868526434619640,
  964031328593135198778536631377369222637489674164126656070295272191919335828457215663854918457738690882034846902852560974268951530,
  977515735503989208859216606340730211542135462755569800887691889400365350611597494694176881609607469273242785656507509182697425110,
  987868941198889198522385684473473530648601555056486429925828796307557579621016637053233578519735936888683360787790337368952031980,
  995057977847411875043189116506202371594100746405392249986350060413537979300314618148395439596354415626209551992823298289783539240,
  999061419564818541479431839519384423155541278929420157332401684710972505670225533327081976133094140768408191534042026313450827440]

/-- `case 55` (Util/Gauss_Legendre_Nodes_and_Weights.hpp:7742-8020), `weights`. -/
def weights55 : List Nat := [
  2408323619979788819170193489125278704169627541705705522310777130182879554565736160955076100433127819730429050000000000000000000,
  5598632266560767354083416871859857245151295241666759997061874337021234883661502843201747541780109817087146900000000000000000000,
  8775746107058528177389600683317838164456440760695935196171991323666988781625127047773969476706739005419404000000000000000000000,
  11925160719848612170752553157589888292640347447988949214417422706364316009843423985118862892221654520072629000000000000000000000,
  15036458333511788213150898901937281711822249499535817582157702574141261723086950160318069466693903179102509000000000000000000000,
  18099614520729062407968202643412230402778494537552972132224896796669116677150715639245527560534129716006151000000000000000000000,
  21104801668016454120209305623698334480934374061917051418172642630517410927503172221663575041582038169042706000000000000000000000,
  24042388009725622007791572928603458499246150561830809092774550506610171063104939626275121546091720977280748400000000000000000000,
  26902961456396270667120028653779097143376661132680020735425117476895277272247358698965319915119962175245768100000000000000000000,
  29677357765161041221296506186885360229858640594329735074306407498948691656634304803349347320984492873218669900000000000000000000,
  32356689226185831684705591875776865757668395031193504124795365834137826873294145864799033818420350183922728050000000000000000000,
  34932372873589887407268226802706487974287461289662762013675370468961811299440275097017905919783110917163123180000000000000000000,
  37396157867965545282915598582457549515103401503920990974026624848172021153751477832230950626776329738870761392000000000000000000,
  39740151874337179609463831903399835868026851381685978807929890338797926234024643716260534861014182422628995523200000000000000000,
  41956846317718762395207316692144122576566358220778352292734247898834467169213244771307596983835717477706642240050000000000000000,
  44039140421606589895168085653292873134629044945290475128939537122975777906366044861738246806291249716036577276790000000000000000,
  45980363946283838103904860872074668122111154090862040501938219025109696501943379782344167174668110695615158469341000000000000000,
  47774298551200695550036714716055925633818307144288236797822481129826421084581400279843143517026167399317806149836400000000000000,
  49415197711551739480758539016039275681881555328315287444105632921390289749550821279217544231902850199609668535301130000000000000,
  50897805124493979224775274288083438821685540914671073776692944678702649848109203234944607779506594790659419736298471000000000000,
  52217371545632084564393563281295009966742085805350879480315492732698655236974267687394870359369855958711886740890935100000000000,
  53369670001605472723570515636097853727000063146682858353640217485500717715287311588507570209100629975589928035768166911000000000,
  54351009329911102070322118153772148805813309108690095128114757508200911687178753266912772487038363835810785384652669415600000000,
  55158246002508687596651139560666721432530637397205727108719287976743353808967010793937585276958643825457682964051689203570000000,
  55788794195284087102936007109919714672467535388583322356479545039771085252488141314027651705286226150807425113758249700389100000,
  56240634071084368028279088090197827276061259713863014673516208537657774442807347614038120326839235647846416880822785484636460000,
  56512318249772001400658367635189054139688183158251915624043595765616773464182815081551016669980317685607520056520168906188711400,
  56602976444560425440105761981244004038969150101599458894974395411768984044832969494120128768108370252862623466339167415842319748,
  56512318249772001400658367635189054139688183158251915624043595765616773464182815081551016669980317685607520056520168906188711400,
  56240634071084368028279088090197827276061259713863014673516208537657774442807347614038120326839235647846416880822785484636460000,
  55788794195284087102936007109919714672467535388583322356479545039771085252488141314027651705286226150807425113758249700389100000,
  55158246002508687596651139560666721432530637397205727108719287976743353808967010793937585276958643825457682964051689203570000000,
  54351009329911102070322118153772148805813309108690095128114757508200911687178753266912772487038363835810785384652669415600000000,
  53369670001605472723570515636097853727000063146682858353640217485500717715287311588507570209100629975589928035768166911000000000,
  52217371545632084564393563281295009966742085805350879480315492732698655236974267687394870359369855958711886740890935100000000000,
  50897805124493979224775274288083438821685540914671073776692944678702649848109203234944607779506594790659419736298471000000000000,
  49415197711551739480758539016039275681881555328315287444105632921390289749550821279217544231902850199609668535301130000000000000,
  47774298551200695550036714716055925633818307144288236797822481129826421084581400279843143517026167399317806149836400000000000000,
  45980363946283838103904860872074668122111154090862040501938219025109696501943379782344167174668110695615158469341000000000000000,
  44039140421606589895168085653292873134629044945290475128939537122975777906366044861738246806291249716036577276790000000000000000,
  41956846317718762395207316692144122576566358220778352292734247898834467169213244771307596983835717477706642240050000000000000000,
  39740151874337179609463831903399835868026851381685978807929890338797926234024643716260534861014182422628995523200000000000000000,
  37396157867965545282915598582457549515103401503920990974026624848172021153751477832230950626776329738870761392000000000000000000,
  34932372873589887407268226802706487974287461289662762013675370468961811299440275097017905919783110917163123180000000000000000000,
  32356689226185831684705591875776865757668395031193504124795365834137826873294145864799033818420350183922728050000000000000000000,
  29677357765161041221296506186885360229858640594329735074306407498948691656634304803349347320984492873218669900000000000000000000,
  26902961456396270667120028653779097143376661132680020735425117476895277272247358698965319915119962175245768100000000000000000000,
  24042388009725622007791572928603458499246150561830809092774550506610171063104939626275121546091720977280748400000000000000000000,
  21104801668016454120209305623698334480934374061917051418172642630517410927503172221663575041582038169042706000000000000000000000,
  18099614520729062407968202643412230402778494537552972132224896796669116677150715639245527560534129716006151000000000000000000000,
  15036458333511788213150898901937281711822249499535817582157702574141261723086950160318069466693903179102509000000000000000000000,
  11925160719848612170752553157589888292640347447988949214417422706364316009843423985118862892221654520072629000000000000000000000,
  8775746107058528177389600683317838164456440760695935196171991323666988781625127047773969476706739005419404000000000000000000000,
  5598632266560767354083416871859857245151295241666759997061874337021234883661502843201747541780109817087146900000000000000000000,
  2408323619979788819170193489125278704169627541705705522310777130182879554565736160955076100433127819730429050000000000000000000]

/-- `case 56` (Util/Gauss_Legendre_Nodes_and_Weights.hpp:8022-8306), `nodes`. -/
def nodes56 : List Int := [
  -999094343801465584353153825090904262176018978459756369772157258474555952732056785168527429295554371833863532796284797843361358450,
  -995231226081069747216308760098940945548538455233990374533854232725467169029491945522757004490703056020136838530947168866448135880,
  -988293715540161511089925163523486216764541143224616164957430991234365927619916438500656430390277230052864662261552014615566429600,
  -978301709140256383376990551538188131227013897750228423840476369642193636246087441200574646645934096874552557547863557220428037350,
  -965285901905490183626194976055095698217551218657663428111332652542438721789577432331636409812328257459152060822694046752089989310,
  -949286479561962635646737602794928066889563522588144522146870154276136059100337073227589003768764418872994740711023732823678805800,
  -930352880247496300547272723291600853026814305996895026740601697634022845021401674559000295613749698828680864180714879093831587010,
  -908543620420655490846107289957241779532211068809586915731846147682423036809926392251302637905074579564628824265115590762067569340,
  -883926108327827540789012285809286727505981410232089251907520506554149106296627817933818299259763037064817951800559165657806730680,
  -856576433762748635402991386766870604073674174709864280662351696821167280314618828439575140396901403491173941634378412473196252600,
  -826579132142881651672126974456850323343042175963860086397207204861820351240784926390685045753299444600873395505660530121099200800,
  -794026922893866498030008308486000477657203301683242045487769278558851857683501760271782492243983536196965849051176548171942391350,
  -759020422705128902202413294445893867364837249273649469330284166586755818031531725365606451702133898508391091584364118725449586720,
  -721667834450188083522593787047553457344048519285738254355545282038948924395791825330765306512883104717326802567787118015576414730,
  -682084612694470455501561477969836333105109367461210194212720856392463405898344946216357122514105026293144037714305591801744026450,
  -640393106807006894267938596062813078923806572947805830816997087026529767828474001577628978088044225298678634353202931370318242040,
  -596722182770663320104135217138408383220500869241944364733258853129714928625396361329561851967572340449744089331600111139094946020,
  -551206824855534618754363514576316602525662578352490243388232389694634700682057429035256845779211985809177029876774352016345788090,
  -503987718384381714195224401218638137709305949354017502441275674011523125004608051910549016015473003314247202217260364091490762710,
  -455210814878459578948831581324609559907226905503907879801963157016918823614297316085377500878836674255554131459882385426525822970,
  -405026880927091278118866962602922894655371382368290725743006053092360417364756732215332263039934923701144562419424325543442799090,
  -353591032174954520969707327033232405634678794381171976468419815578264702985234226307284700117567913006718452468018265500713368640,
  -301062253867220669053094233125234343925071846124383470696835566092482444516936879237891886203325263195842983082609247466717765310,
  -247602909434337203972966554970526972879663243142767006090190232279774049476282235521138645840540251014769819598792902569329489720,
  -193378238635275258240184723012684161816167392763801259036158272496400480071863518627305610791645080637906343683304050872963327700,
  -138555846810376242012886580438490595351490508462528551483368458789393292071998422147290777158380475143539487310217414909273493470,
  -83305186822435374440287355440662448183987414189030545891088574200379927687059307301752952747161853737321646533186133443959659987,
  -27797035287275437094061196774920521888376603146774487761249155866672129365930631226514112616182599868813983713347664139504678348,
  27797035287275437094061196774920521888376603146774487761249155866672129365930631226514112616182599868813983713347664139504678348,
  83305186822435374440287355440662448183987414189030545891088574200379927687059307301752952747161853737321646533186133443959659987,
  138555846810376242012886580438490595351490508462528551483368458789393292071998422147290777158380475143539487310217414909273493470,
  193378238635275258240184723012684161816167392763801259036158272496400480071863518627305610791645080637906343683304050872963327700,
  247602909434337203972966554970526972879663243142767006090190232279774049476282235521138645840540251014769819598792902569329489720,
  301062253867220669053094233125234343925071846124383470696835566092482444516936879237891886203325263195842983082609247466717765310,
  353591032174954520969707327033232405634678794381171976468419815578264702985234226307284700117567913006718452468018265500713368640,
  405026880927091278118866962602922894655371382368290725743006053092360417364756732215332263039934923701144562419424325543442799090,
  455210814878459578948831581324609559907226905503907879801963157016918823614297316085377500878836674255554131459882385426525822970,
  503987718384381714195224401218638137709305949354017502441275674011523125004608051910549016015473003314247202217260364091490762710,
  551206824855534618754363514576316602525662578352490243388232389694634700682057429035256845779211985809177029876774352016345788090,
  596722182770663320104135217138408383220500869241944364733258853129714928625396361329561851967572340449744089331600111139094946020,
  640393106807006894267938596062813078923806572947805830816997087026529767828474001577628978088044225298678634353202931370318242040,
  682084612694470455501561477969836333105109367461210194212720856392463405898344946216357122514105026293144037714305591801744026450,
  721667834450188083522593787047553457344048519285738254355545282038948924395791825330765306512883104717326802567787118015576414730,
  759020422705128902202413294445893867364837249273649469330284166586755818031531725365606451702133898508391091584364118725449586720,
  794026922893866498030008308486000477657203301683242045487769278558851857683501760271782492243983536196965849051176548171942391350,
  826579132142881651672126974456850323343042175963860086397207204861820351240784926390685045753299444600873395505660530121099200800,
  856576433762748635402991386766870604073674174709864280662351696821167280314618828439575140396901403491173941634378412473196252600,
  883926108327827540789012285809286727505981410232089251907520506554149106296627817933818299259763037064817951800559165657806730680,
  908543620420655490846107289957241779532211068809586915731846147682423036809926392251302637905074579564628824265115590762067569340,
  930352880247496300547272723291600853026814305996895026740601697634022845021401674559000295613749698828680864180714879093831587010,
  949286479561962635646737602794928066889563522588144522146870154276136059100337073227589003768764418872994740711023732823678805800,
  965285901905490183626194976055095698217551218657663428111332652542438721789577432331636409812328257459152060822694046752089989310,
  978301709140256383376990551538188131227013897750228423840476369642193636246087441200574646645934096874552557547863557220428037350,
  988293715540161511089925163523486216764541143224616164957430991234365927619916438500656430390277230052864662261552014615566429600,
  995231226081069747216308760098940945548538455233990374533854232725467169029491945522757004490703056020136838530947168866448135880,
  999094343801465584353153825090904262176018978459756369772157258474555952732056785168527429295554371833863532796284797843361358450]

/-- `case 56` (Util/Gauss_Legendre_Nodes_and_Weights.hpp:8022-8306), `weights`. -/
def weights56 : List Nat := [
  2323855375773215501102276443395864737593209917358594030507291452553538835276599676727513886846080351540373900000000000000000000,
  5402522246015337761311260944120872841627818184113977357585577929434577630521026438567727368682064790346756000000000000000000000,
  8469063163307887661627112375008160176077487574126915948937270362340053919831063394165539495885717666347089000000000000000000000,
  11509824340383382173772759324497119274855904817969143585355040667729537608963765324870512222566686804354394000000000000000000000,
  14515089278021471807770740533012991024096198499244257590190714938957993177696822733636974559557869612640663000000000000000000000,
  17475512911400946504959368905457150230780280576876490006608279301100623476324921725026069281268218938115992000000000000000000000,
  20381929882402572634805983666933347507119464398612008450226424254481976134328355959054777022145698082389275000000000000000000000,
  23225351562565316937258157576788526555722019824579004433803827710452523413547337502367676396058425759097181000000000000000000000,
  25996987058391952191819432207272351448010252050694359373317092456807259146381955147313795895906497348807208200000000000000000000,
  28688268473822741729885884430394272604134137046845229366862374481794090150616660717186449685126670135231165800000000000000000000,
  31290876747310447867835477793025346977846013187227716614246120659097864444687519324065036259593519292455274370000000000000000000,
  33796767115611761295426631225447049817607071678267145154121359202143187510915838203489134248188270762319392510000000000000000000,
  36198193872315186035884468288886245400630234672314216920846026656467799376057214711918153097108999965898022973000000000000000000,
  38487734259247662486825591623381279343819634681482013260995696839900799977742834957947575992515655365376969279000000000000000000,
  40658311384744517880125022778852763075542273049052722318399917743475827061533973146327095914289825745107757704000000000000000000,
  42703216084667086511038572362477080893470945966617574890415029186883112357366187302802455741304300655668213420130000000000000000,
  44616127652692283213415192927623740325846438416296704225647052549989450473629594354730580171161767317240353518262000000000000000,
  46391133373001896762190191066496034234609806100500490305575631638249134870267527266128561592318624583496081546256200000000000000,
  48022746793600258120735505666999712144016876770024270100314788232208540025828727674998925210272027797770705678084130000000000000,
  49505924683047578919966046430845556418718849071317995956829241134680476515524586760422122281666818128106671847440653000000000000,
  50836082617798480560124018470198655982991637932084215513756609028136888375532759394393741878725785844550480741425187500000000000,
  52009109151741399843052264827484721670532585312901358387767820233473934995449649014114012133294583622738257816068466960000000000,
  53021378524010763967991558607691468727381434081024006549605929571468087096522858841387855133414897442356961026823131256000000000,
  53869761865714485708954410406697994247924535671888247448446449305173140214953837945880435907711480215210328093635860330990000000,
  54551636870889421061750654890090179944060723780916352632159005155187686970801569853859130742633471792098521252215304328445000000,
  55064895901762425796304597547850325341355512800659012577514271865766372515610092475653650077441198439492656970628577209290500000,
  55407952503245123217793391843910018909562031380663017995792948688387957956426191095087574110866960964785670908267006506445118000,
  55579746306514395846273426835161170144066622556342959004172208753657565767660529057876923693447882576457582723843381225540283420,
  55579746306514395846273426835161170144066622556342959004172208753657565767660529057876923693447882576457582723843381225540283420,
  55407952503245123217793391843910018909562031380663017995792948688387957956426191095087574110866960964785670908267006506445118000,
  55064895901762425796304597547850325341355512800659012577514271865766372515610092475653650077441198439492656970628577209290500000,
  54551636870889421061750654890090179944060723780916352632159005155187686970801569853859130742633471792098521252215304328445000000,
  53869761865714485708954410406697994247924535671888247448446449305173140214953837945880435907711480215210328093635860330990000000,
  53021378524010763967991558607691468727381434081024006549605929571468087096522858841387855133414897442356961026823131256000000000,
  52009109151741399843052264827484721670532585312901358387767820233473934995449649014114012133294583622738257816068466960000000000,
  50836082617798480560124018470198655982991637932084215513756609028136888375532759394393741878725785844550480741425187500000000000,
  49505924683047578919966046430845556418718849071317995956829241134680476515524586760422122281666818128106671847440653000000000000,
  48022746793600258120735505666999712144016876770024270100314788232208540025828727674998925210272027797770705678084130000000000000,
  46391133373001896762190191066496034234609806100500490305575631638249134870267527266128561592318624583496081546256200000000000000,
  44616127652692283213415192927623740325846438416296704225647052549989450473629594354730580171161767317240353518262000000000000000,
  42703216084667086511038572362477080893470945966617574890415029186883112357366187302802455741304300655668213420130000000000000000,
  40658311384744517880125022778852763075542273049052722318399917743475827061533973146327095914289825745107757704000000000000000000,
  38487734259247662486825591623381279343819634681482013260995696839900799977742834957947575992515655365376969279000000000000000000,
  36198193872315186035884468288886245400630234672314216920846026656467799376057214711918153097108999965898022973000000000000000000,
  33796767115611761295426631225447049817607071678267145154121359202143187510915838203489134248188270762319392510000000000000000000,
  31290876747310447867835477793025346977846013187227716614246120659097864444687519324065036259593519292455274370000000000000000000,
  28688268473822741729885884430394272604134137046845229366862374481794090150616660717186449685126670135231165800000000000000000000,
  25996987058391952191819432207272351448010252050694359373317092456807259146381955147313795895906497348807208200000000000000000000,
  23225351562565316937258157576788526555722019824579004433803827710452523413547337502367676396058425759097181000000000000000000000,
  20381929882402572634805983666933347507119464398612008450226424254481976134328355959054777022145698082389275000000000000000000000,
  17475512911400946504959368905457150230780280576876490006608279301100623476324921725026069281268218938115992000000000000000000000,
  14515089278021471807770740533012991024096198499244257590190714938957993177696822733636974559557869612640663000000000000000000000,
  11509824340383382173772759324497119274855904817969143585355040667729537608963765324870512222566686804354394000000000000000000000,
  8469063163307887661627112375008160176077487574126915948937270362340053919831063394165539495885717666347089000000000000000000000,
  5402522246015337761311260944120872841627818184113977357585577929434577630521026438567727368682064790346756000000000000000000000,
  2323855375773215501102276443395864737593209917358594030507291452553538835276599676727513886846080351540373900000000000000000000]

/-- `case 57` (Util/Gauss_Legendre_Nodes_and_Weights.hpp:8308-8596), `nodes`. -/
def nodes57 : List Int := [
  -999125565625262850572009849554249884999127586007013575366052524287463529688984134085791545074768254848156574462172658769142216770,
  -995395523678430311135125027362419005975068868913413964003491756502239981580959247832685529772220654232838878881960162521427238530,
  -988696577650222048849758398383855438510084086698944005886031658166850876894435152239205279714469492835480074456482619385010352730,
  -979047226709468713798820875366507757360931223767780684696787189101300776430735681824021057801418057244639447101620166000320467360,
  -966476085171886679114858583942333188968490094502385620336202536276176098741734724164635821387491484820332622700815322453851476970,
  -951020626447876741911904110605190328637799339662690428098161685129562378751695010380216390246146534428586171644335229131943050850,
  -932726961067101696100754154297356638067488635116634849237384659086957932727136569292845863639366608002920008012717729714522339890,
  -911649678521391212728430561619670310918248410397413302297047111980155087344450000453720783508079454141053011991498749773584162790,
  -887851678882221329513000147641861716134275787267035282276091206490916954166155778103918086852036098042494678825478220156452910120,
  -861403983262046944722241881805214754221933005613239618291601485172857876826232749470498341194494765534360590650694610808748365170,
  -832385521150439120829010895865203218252265650096639454773435479443578997125546699682824724354397822296948041806353343221691073520,
  -800882894547218242076008718794948567701803620155421602443574135266318936053701234570752297887410002849942486542246995179487099180,
  -766990119359450195491716144018132355236648415822398242516647840902738079654736409484535010348443076162373206857336765455351241990,
  -730808344744523322827344670736778316263122119509612203247615858317274876167351283922121479999758156145633023711344128727265292540,
  -692445551199517739040483688444010445656676634614142890003983183611752302010000307163071224251357637364530821934794381487008630270,
  -652016228280976891249361840795708283670660556972154810377197610904279336876998459857525672734674051350968564701511178605685661820,
  -609641032908715365423848901924740624324000572923964613525722539543006821572663870018299440668581513092562377933248093492097007730,
  -565446429269236759018985552805240429370022074221579729443238329953879574977805547225041963306841980401137985881709790078865625210,
  -519564311391187606315153819806214351080631108269511806478501853821515735868544705353435079867258257150590388236535651838620742030,
  -472131609517975709588060082049234749822237925699326685490619036203469103174948027564602256346495698051091183996980251387863596020,
  -423289881451563950960024353471524379014050952134588289851469666502713594469113300604954553302479376668233189648367826417056004730,
  -373184890086594458552134396144889010556460146092633533766250400158368677742826732883892384256696856536809388585760755444852279410,
  -321966168395378640590207915805397239372739467662806315935314533636508072620635494983513743328010519667566672744612862416564807760,
  -269786573161838765763345609799643344299057994351474759471027874601526303996959145822325170534725929514430272702107478196615466840,
  -216801828796124036413613975979559274256583295504472438350113180597399563043498507389511944831887894310574773597675450548133822920,
  -163170062591264251043280378321512062185909989303105713779236933795845895538028361665543720647061636959026504564181844323743402080,
  -109051332808787800978526521310979049455045137501671026889084885172708085327516923942676766026776797302763817217351365538206370340,
  -54607151001646824219830559737332445410442334359720780771809984628667403823045543926097859064876884192117069137722579127686203356,
  0,
  54607151001646824219830559737332445410442334359720780771809984628667403823045543926097859064876884192117069137722579127686203356,
  109051332808787800978526521310979049455045137501671026889084885172708085327516923942676766026776797302763817217351365538206370340,
  163170062591264251043280378321512062185909989303105713779236933795845895538028361665543720647061636959026504564181844323743402080,
  216801828796124036413613975979559274256583295504472438350113180597399563043498507389511944831887894310574773597675450548133822920,
  269786573161838765763345609799643344299057994351474759471027874601526303996959145822325170534725929514430272702107478196615466840,
  321966168395378640590207915805397239372739467662806315935314533636508072620635494983513743328010519667566672744612862416564807760,
  373184890086594458552134396144889010556460146092633533766250400158368677742826732883892384256696856536809388585760755444852279410,
  423289881451563950960024353471524379014050952134588289851469666502713594469113300604954553302479376668233189648367826417056004730,
  472131609517975709588060082049234749822237925699326685490619036203469103174948027564602256346495698051091183996980251387863596020,
  519564311391187606315153819806214351080631108269511806478501853821515735868544705353435079867258257150590388236535651838620742030,
  565446429269236759018985552805240429370022074221579729443238329953879574977805547225041963306841980401137985881709790078865625210,
  609641032908715365423848901924740624324000572923964613525722539543006821572663870018299440668581513092562377933248093492097007730,
  652016228280976891249361840795708283670660556972154810377197610904279336876998459857525672734674051350968564701511178605685661820,
  692445551199517739040483688444010445656676634614142890003983183611752302010000307163071224251357637364530821934794381487008630270,
  730808344744523322827344670736778316263122119509612203247615858317274876167351283922121479999758156145633023711344128727265292540,
  766990119359450195491716144018132355236648415822398242516647840902738079654736409484535010348443076162373206857336765455351241990,
  800882894547218242076008718794948567701803620155421602443574135266318936053701234570752297887410002849942486542246995179487099180,
  832385521150439120829010895865203218252265650096639454773435479443578997125546699682824724354397822296948041806353343221691073520,
  861403983262046944722241881805214754221933005613239618291601485172857876826232749470498341194494765534360590650694610808748365170,
  887851678882221329513000147641861716134275787267035282276091206490916954166155778103918086852036098042494678825478220156452910120,
  911649678521391212728430561619670310918248410397413302297047111980155087344450000453720783508079454141053011991498749773584162790,
  932726961067101696100754154297356638067488635116634849237384659086957932727136569292845863639366608002920008012717729714522339890,
  951020626447876741911904110605190328637799339662690428098161685129562378751695010380216390246146534428586171644335229131943050850,
  966476085171886679114858583942333188968490094502385620336202536276176098741734724164635821387491484820332622700815322453851476970,
  979047226709468713798820875366507757360931223767780684696787189101300776430735681824021057801418057244639447101620166000320467360,
  988696577650222048849758398383855438510084086698944005886031658166850876894435152239205279714469492835480074456482619385010352730,
  995395523678430311135125027362419005975068868913413964003491756502239981580959247832685529772220654232838878881960162521427238530,
  999125565625262850572009849554249884999127586007013575366052524287463529688984134085791545074768254848156574462172658769142216770]

/-- `case 57` (Util/Gauss_Legendre_Nodes_and_Weights.hpp:8308-8596), `weights`. -/
def weights57 : List Nat := [
  2243753872250662909734786822635013886267518605154539191537790418974074304160276697312157822842946196498233600000000000000000000,
  5216533474718779390506629871420085323031415390427644620673318701423465255098986218320696593168232114468350000000000000000000000,
  8178160067821232626210998130379401864709426091187051555949580317526397631644447035852022599702142855329912000000000000000000000,
  11115763732335990145675448768190039139590433363178622080611577635217805426709629557325514068232086269448540000000000000000000000,
  14020270790753556170247151338150251322826848223812845610860451518812633118757498603444471404742963963530510000000000000000000000,
  16882959023441549035000821566833276446305965020000440407849244624218828608920147004718909479084800561447322000000000000000000000,
  19695270699488520382422452273514858424697040577839501214441149443142848022597769648285927942403976455351784000000000000000000000,
  22448807890776438079689238845090880438796201960662731728909777432787172912904491140768865122778534310170811000000000000000000000,
  25135350990918122647273788140955487975880912607334605291915586995572525594275151097728563826283582352740974000000000000000000000,
  27746881402180192321257950038363759169620846315995261788046286631729748864647441651365391514841471824719116400000000000000000000,
  30275604842693999458490598833137211185118454505337668152618050941242244905847113792185129134656226065677441900000000000000000000,
  32713974366371568542490109910393498284574768638930671066334680483102711728988080364563070440250337477600157170000000000000000000,
  35054712782312617505750970596550064456901255675940901825042253988731375278767922672049229095205625354025884950000000000000000000,
  37290834324417317354735263995698965553969872408768056377127113528477290405323705844978822006549741664138437461000000000000000000,
  39415665475480114089952720801055504250815172732294573103000345714865968276872164299280130316071397275541722059100000000000000000,
  41422864870801110363196905273610430960135114091201541920270983663155771960969152242589930339081678897359893457100000000000000000,
  43306442216215196596432108328426125704364651342725808418391978993231891857253072561913125960368875955212287382420000000000000000,
  45060776161381157797213529525832970354111336641602674194852982093168883110262215892888773052630060591120655605288000000000000000,
  46680631073641503783840892778833570883054996524292977858184136726881995338855243952680939676095500381702884300555100000000000000,
  48161172661687751268851051756816736716242854319529977750933677198182155711385653263042342699877694343513171480993970000000000000,
  49497982402019678993837944499387926264672896076258685350884369913703445468461146493887499838516129187643316168037858000000000000,
  50687070724927408656640425563636579553104798711649953648661067714329843632301793527391526215800587679768506571535616100000000000,
  51724888920517824720623908665146980625869276489454255303058514548950940485585501767131230232303480018850609332406331569000000000,
  52608339729177432440231381640884189625255916428982592768570397722590590471816339595555475297812786643599678344574204799800000000,
  53334786584819158426576977991440625095947046237843937282249974303785695582983005812144931056762058636750359285090114910180000000,
  53902061483298574642809481730601453486627674587340716809565499012656188861689323411665204037857518235425488491403825800706300000,
  54308471452498643138746772954791560263377576128477772362576654871254839757026138214140465575267983831131382165879721854863570000,
  54552803604761886480138995364196514476015348229502539085943850028286432589855314578377724238871314757974777271484676791249438800,
  54634328756584024062841387988052076536228764148542906461877409667992469672082546116823860823880532198515600858861073873832414506,
  54552803604761886480138995364196514476015348229502539085943850028286432589855314578377724238871314757974777271484676791249438800,
  54308471452498643138746772954791560263377576128477772362576654871254839757026138214140465575267983831131382165879721854863570000,
  53902061483298574642809481730601453486627674587340716809565499012656188861689323411665204037857518235425488491403825800706300000,
  53334786584819158426576977991440625095947046237843937282249974303785695582983005812144931056762058636750359285090114910180000000,
  52608339729177432440231381640884189625255916428982592768570397722590590471816339595555475297812786643599678344574204799800000000,
  51724888920517824720623908665146980625869276489454255303058514548950940485585501767131230232303480018850609332406331569000000000,
  50687070724927408656640425563636579553104798711649953648661067714329843632301793527391526215800587679768506571535616100000000000,
  49497982402019678993837944499387926264672896076258685350884369913703445468461146493887499838516129187643316168037858000000000000,
  48161172661687751268851051756816736716242854319529977750933677198182155711385653263042342699877694343513171480993970000000000000,
  46680631073641503783840892778833570883054996524292977858184136726881995338855243952680939676095500381702884300555100000000000000,
  45060776161381157797213529525832970354111336641602674194852982093168883110262215892888773052630060591120655605288000000000000000,
  43306442216215196596432108328426125704364651342725808418391978993231891857253072561913125960368875955212287382420000000000000000,
  41422864870801110363196905273610430960135114091201541920270983663155771960969152242589930339081678897359893457100000000000000000,
  39415665475480114089952720801055504250815172732294573103000345714865968276872164299280130316071397275541722059100000000000000000,
  37290834324417317354735263995698965553969872408768056377127113528477290405323705844978822006549741664138437461000000000000000000,
  35054712782312617505750970596550064456901255675940901825042253988731375278767922672049229095205625354025884950000000000000000000,
  32713974366371568542490109910393498284574768638930671066334680483102711728988080364563070440250337477600157170000000000000000000,
  30275604842693999458490598833137211185118454505337668152618050941242244905847113792185129134656226065677441900000000000000000000,
  27746881402180192321257950038363759169620846315995261788046286631729748864647441651365391514841471824719116400000000000000000000,
  25135350990918122647273788140955487975880912607334605291915586995572525594275151097728563826283582352740974000000000000000000000,
  22448807890776438079689238845090880438796201960662731728909777432787172912904491140768865122778534310170811000000000000000000000,
  19695270699488520382422452273514858424697040577839501214441149443142848022597769648285927942403976455351784000000000000000000000,
  16882959023441549035000821566833276446305965020000440407849244624218828608920147004718909479084800561447322000000000000000000000,
  14020270790753556170247151338150251322826848223812845610860451518812633118757498603444471404742963963530510000000000000000000000,
  11115763732335990145675448768190039139590433363178622080611577635217805426709629557325514068232086269448540000000000000000000000,
  8178160067821232626210998130379401864709426091187051555949580317526397631644447035852022599702142855329912000000000000000000000,
  5216533474718779390506629871420085323031415390427644620673318701423465255098986218320696593168232114468350000000000000000000000,
  2243753872250662909734786822635013886267518605154539191537790418974074304160276697312157822842946196498233600000000000000000000]

/-- `case 58` (Util/Gauss_Legendre_Nodes_and_Weights.hpp:8598-8892), `nodes`. -/
def nodes58 : List Int := [
  -999155200407386606442737044184605761045813585872715630711818611208151864967754857400691892925817647325212268790311654235444679090,
  -995551476597290902602771526179946141276967280242974880865951914041685548417644237976267745573598042056267995869559644612529001980,
  -989079008248442636499910255275442056883205365501321505339012492640134174575073869132684683050755652932640281204048923359830244730,
  -979755014694350309107816334392598034869875945691289138754883975173766939978548528663589400670463544440323130588061767603231486080,
  -967606202502924090153300784621206194912872774994425960291278402125064079673310237924244713872626121613520301701813721123453827130,
  -952667557518869091442845510022930333705587628975491226189903011890943564551859465992089548850342142936192677609376106390152218680,
  -934982137588259348480843234766247495409147422744563943508051077727606881157989512593771420267053754960381676138547523319671182310,
  -914600928564352540686505649897521820495615095425406114717056108219767123518377682663651749827201607214501261012854861313262997700,
  -891582692022030176399882820812797546482551849941030649473497643495748429186826030194108100620960940392898413105044254653366737470,
  -865993794074807479275071232512087657694274148605561062908420120276249766088828915940384911756172257566187886809279259435584309280,
  -837908013339373316352097920621624361286867305697942393854146616000178012238482553894050562845780953187140136727444916211851712510,
  -807406327913088141048997152207395227983283424010130542355808249507419792407211398294291306934173244208176126894287859281803698010,
  -774576681749652745266140046496826665648970000627280786983217021279625600858646528018183258843730293404525788699548753179458158950,
  -739513731020042267846617234851032790970657448048203529898136963500383896264248912964384591310705398455977849155486594470009864630,
  -702318571153908113479757301458201383660685816647606888999400406447183890332952293229492838108425023132891567468654170733064363560,
  -663098445332125266433016299753565691960643624304121991486865456331248253024222648683939608426475109433376906260859977948867483950,
  -621966435263079111033984058745491120232235253849255085004857797093117544232874268702875122112334520690137296718526218487408258110,
  -579041135130225030489977117136083403820176816683960341165657481215994787426545271111333230392637611667430559359998732535399894040,
  -534446309648847586399802417425204355788763287356337084120883643557613687712778465499772379537001033165150826708877596040716564720,
  -488310537216718463615552572736785420894228720802451279343581414481019520906443387914709298014106477481887618604366901450336629860,
  -440766839186839565193703062214304414122414801908176397213466417416056615406951553774297519621457963542513040506804862841208372300,
  -391952296330753150371216941213010702185017624423004215443875058898209219003691932251138010346979153631448663973835752900528556240,
  -342007653597995261248368267483996950877672821629287289050692008683875395520806532866283872086487256639426820920255122574183714920,
  -291076914311109189533025268314303302189517100857549347688996621531673093892431434345320397024413418602733549482451617776035870500,
  -239306924966153454428948509085334787700528828035330306603995102157073053787675270687674694072311948508771303480159673346934501590,
  -186846951835761321374383881464022406061547888441217034721149898151948915026774494601711154325311622662767726078063005481857401680,
  -133848250595466857022376847874540911952957524270560419571079944760217812512732333259449441883319672545781544401868067228800741490,
  -80463630214142729309847792380503194889334896831864809921181775136950971073331660342540182210094377468223298251795878513312093859,
  -26847012365942355803338689517379985843421176631893609977828824564351635890035259284262555378544259464676296737664891111428639575,
  26847012365942355803338689517379985843421176631893609977828824564351635890035259284262555378544259464676296737664891111428639575,
  80463630214142729309847792380503194889334896831864809921181775136950971073331660342540182210094377468223298251795878513312093859,
  133848250595466857022376847874540911952957524270560419571079944760217812512732333259449441883319672545781544401868067228800741490,
  186846951835761321374383881464022406061547888441217034721149898151948915026774494601711154325311622662767726078063005481857401680,
  239306924966153454428948509085334787700528828035330306603995102157073053787675270687674694072311948508771303480159673346934501590,
  291076914311109189533025268314303302189517100857549347688996621531673093892431434345320397024413418602733549482451617776035870500,
  342007653597995261248368267483996950877672821629287289050692008683875395520806532866283872086487256639426820920255122574183714920,
  391952296330753150371216941213010702185017624423004215443875058898209219003691932251138010346979153631448663973835752900528556240,
  440766839186839565193703062214304414122414801908176397213466417416056615406951553774297519621457963542513040506804862841208372300,
  488310537216718463615552572736785420894228720802451279343581414481019520906443387914709298014106477481887618604366901450336629860,
  534446309648847586399802417425204355788763287356337084120883643557613687712778465499772379537001033165150826708877596040716564720,
  579041135130225030489977117136083403820176816683960341165657481215994787426545271111333230392637611667430559359998732535399894040,
  621966435263079111033984058745491120232235253849255085004857797093117544232874268702875122112334520690137296718526218487408258110,
  663098445332125266433016299753565691960643624304121991486865456331248253024222648683939608426475109433376906260859977948867483950,
  702318571153908113479757301458201383660685816647606888999400406447183890332952293229492838108425023132891567468654170733064363560,
  739513731020042267846617234851032790970657448048203529898136963500383896264248912964384591310705398455977849155486594470009864630,
  774576681749652745266140046496826665648970000627280786983217021279625600858646528018183258843730293404525788699548753179458158950,
  807406327913088141048997152207395227983283424010130542355808249507419792407211398294291306934173244208176126894287859281803698010,
  837908013339373316352097920621624361286867305697942393854146616000178012238482553894050562845780953187140136727444916211851712510,
  865993794074807479275071232512087657694274148605561062908420120276249766088828915940384911756172257566187886809279259435584309280,
  891582692022030176399882820812797546482551849941030649473497643495748429186826030194108100620960940392898413105044254653366737470,
  914600928564352540686505649897521820495615095425406114717056108219767123518377682663651749827201607214501261012854861313262997700,
  934982137588259348480843234766247495409147422744563943508051077727606881157989512593771420267053754960381676138547523319671182310,
  952667557518869091442845510022930333705587628975491226189903011890943564551859465992089548850342142936192677609376106390152218680,
  967606202502924090153300784621206194912872774994425960291278402125064079673310237924244713872626121613520301701813721123453827130,
  979755014694350309107816334392598034869875945691289138754883975173766939978548528663589400670463544440323130588061767603231486080,
  989079008248442636499910255275442056883205365501321505339012492640134174575073869132684683050755652932640281204048923359830244730,
  995551476597290902602771526179946141276967280242974880865951914041685548417644237976267745573598042056267995869559644612529001980,
  999155200407386606442737044184605761045813585872715630711818611208151864967754857400691892925817647325212268790311654235444679090]

/-- `case 58` (Util/Gauss_Legendre_Nodes_and_Weights.hpp:8598-8892), `weights`. -/
def weights58 : List Nat := [
  2167723249627449943054342924984511431035440224578618323769472715873299294989587579787033575063955208556916000000000000000000000,
  5039981612650243085017501174622423553330879436741262618305706798830684493933090481494294298119107061458656000000000000000000000,
  7901973849998674754016745674847759507254974511445700226746914202864470655119220162622734250445512869419920000000000000000000000,
  10741553532878774116856361913661873723567450017741658281402721374562165440022495195449870992469685768893220000000000000000000000,
  13550237112988812145178966401761861830830853182986501657704731273203207709157046179484918099526878386105800000000000000000000000,
  16319874234970965052120830419570887482181610527769060152773214001047555661252316934119849531838440279166760000000000000000000000,
  19042465461893408655787659482107603933364132934296662217118054510606920109119316832949689506521427204286170000000000000000000000,
  21710156140146235766916809495118289922602934077950337033875597732105801726931438755175586027325394534281153000000000000000000000,
  24315252724963952540258760625798509744291186513436305887327276410433390489857681683344970104893063632575646000000000000000000000,
  26850243181981868475907478678144955591027464657186006576996446889963959570230075199747195983008166091845686000000000000000000000,
  29307818044160490718394026888443810034961601371953189562524332296399683667654297452254139078982500866310274300000000000000000000,
  31680891253809327320292039621950296687286164524087987325906717878188132452671370618108884768976288612971933400000000000000000000,
  33962620493416010797727555184584799438783776394964800554822451888026543295760236528309228066853076486443537570000000000000000000,
  36146426867087270540780856975855227233342791299126983393177108403934461339843583093140852772639956620563817320000000000000000000,
  38226013845858433229459034457148540065942763986319156472822018679288055940368573189545356001415718223789434892000000000000000000,
  40195385409867796888076750826882292357914040220707784435662441784916299007385391863008065428310371248914323256500000000000000000,
  42048863329582125994569981917254231462266540235519060345943022986441309327568686350506100892272627336131021373800000000000000000,
  43781103533640251039025692348336073242756117660097378261605404836546125985139964660151582997880089678073717416218000000000000000,
  45387111514819802503980536088866049149161768644952135211482540085783075330625841663590083391638837772235228986332000000000000000,
  46862256729026346918418078037920034850913610974974494543759130795676620961409035175898912341815883307627096677662980000000000000,
  48202285945417748406570406109866906575030713626846862596355557625678679487193074695242994991883804372289189324258573000000000000,
  49403335508962392866510865712701319650644422669361168417647275200134012035528873103496032349843840900471378162142400000000000000,
  50461942479953125297659821567631778047487966362545149578041899710322624889330647343426890277694368555769471810979182070000000000,
  51375054618285725474514820611065380302958108095623201934660528704049212549794570027927025149274406840533692685234820991000000000,
  52140039183669818971260556060071825761021690134243344357910772091126817474492210529659145826913737153517672298078805596870000000,
  52754690526370833429645767231523171764933592917337479813992146448839505460112550851714195580151826604473114723889531644043000000,
  53217236446579014103480984377384793212457923304521845089288717100758975104393585647085463613691609359682456402937497891263150000,
  53526343304058252100610813886170180541967489490323921501723169837823715421712816636472577064405002161954945985141807451289776000,
  53681119863334848863905955305724612900681992002361943626654627736574695118402421566286327036144422861657779192026920997902688240,
  53681119863334848863905955305724612900681992002361943626654627736574695118402421566286327036144422861657779192026920997902688240,
  53526343304058252100610813886170180541967489490323921501723169837823715421712816636472577064405002161954945985141807451289776000,
  53217236446579014103480984377384793212457923304521845089288717100758975104393585647085463613691609359682456402937497891263150000,
  52754690526370833429645767231523171764933592917337479813992146448839505460112550851714195580151826604473114723889531644043000000,
  52140039183669818971260556060071825761021690134243344357910772091126817474492210529659145826913737153517672298078805596870000000,
  51375054618285725474514820611065380302958108095623201934660528704049212549794570027927025149274406840533692685234820991000000000,
  50461942479953125297659821567631778047487966362545149578041899710322624889330647343426890277694368555769471810979182070000000000,
  49403335508962392866510865712701319650644422669361168417647275200134012035528873103496032349843840900471378162142400000000000000,
  48202285945417748406570406109866906575030713626846862596355557625678679487193074695242994991883804372289189324258573000000000000,
  46862256729026346918418078037920034850913610974974494543759130795676620961409035175898912341815883307627096677662980000000000000,
  45387111514819802503980536088866049149161768644952135211482540085783075330625841663590083391638837772235228986332000000000000000,
  43781103533640251039025692348336073242756117660097378261605404836546125985139964660151582997880089678073717416218000000000000000,
  42048863329582125994569981917254231462266540235519060345943022986441309327568686350506100892272627336131021373800000000000000000,
  40195385409867796888076750826882292357914040220707784435662441784916299007385391863008065428310371248914323256500000000000000000,
  38226013845858433229459034457148540065942763986319156472822018679288055940368573189545356001415718223789434892000000000000000000,
  36146426867087270540780856975855227233342791299126983393177108403934461339843583093140852772639956620563817320000000000000000000,
  33962620493416010797727555184584799438783776394964800554822451888026543295760236528309228066853076486443537570000000000000000000,
  31680891253809327320292039621950296687286164524087987325906717878188132452671370618108884768976288612971933400000000000000000000,
  29307818044160490718394026888443810034961601371953189562524332296399683667654297452254139078982500866310274300000000000000000000,
  26850243181981868475907478678144955591027464657186006576996446889963959570230075199747195983008166091845686000000000000000000000,
  24315252724963952540258760625798509744291186513436305887327276410433390489857681683344970104893063632575646000000000000000000000,
  21710156140146235766916809495118289922602934077950337033875597732105801726931438755175586027325394534281153000000000000000000000,
  19042465461893408655787659482107603933364132934296662217118054510606920109119316832949689506521427204286170000000000000000000000,
  16319874234970965052120830419570887482181610527769060152773214001047555661252316934119849531838440279166760000000000000000000000,
  13550237112988812145178966401761861830830853182986501657704731273203207709157046179484918099526878386105800000000000000000000000,
  10741553532878774116856361913661873723567450017741658281402721374562165440022495195449870992469685768893220000000000000000000000,
  7901973849998674754016745674847759507254974511445700226746914202864470655119220162622734250445512869419920000000000000000000000,
  5039981612650243085017501174622423553330879436741262618305706798830684493933090481494294298119107061458656000000000000000000000,
  2167723249627449943054342924984511431035440224578618323769472715873299294989587579787033575063955208556916000000000000000000000]

/-- `case 59` (Util/Gauss_Legendre_Nodes_and_Weights.hpp:8894-9192), `nodes`. -/
def nodes59 : List Int := [
  -999183353909294683756424019504678184974225970330022708551072301271655190230774371953085513404573092350739636439422769873242969230,
  -995699640383245964687201823433448307661855776908591227007984199985894847788944776887921233427740077039992301977563502721309898690,
  -989442365133730931782183935022705793473255280023299342569440091363218820657226968352781093086491032409888584293215580542415527600,
  -980427573956715688449607981403267775462557851139703010595845532735972236255478687172038356943658555161512043395181131903264830650,
  -968680221681781531353633339672562057664889443329818485634312291830273915856971002953720187785165960102117782698009652010635170810,
  -954233009376951055863233112185649937073908138274547125631231556650163655333004001786214675715731838532624150314679263185584597170,
  -937126190353453859405138471043289884910602126471147059926692224278852207277232685819955344570402746023907849200026400939070191420,
  -917407438788155281352541485215245826873143490003803993478393681142939719404570124722738678634267920895186576649919145674442112780,
  -895131711743472085364296829462459275029537139409999276567539360426988284316377633938527873009138214449274759849360557235848863200,
  -870361094292882260963426233104145201284186947396187657715117104200706567232020011389638572896259929617289387249356845611849522800,
  -843164625816872201470350953972236638470225960817232192577298915238071609300966806772931520815753782518040172306733226165431960010,
  -813618107288211571435089773821200447410704065089647453703423916783087014945337594208153043617249626786442740590338233572479332120,
  -781803889862360905632678812767482628029666956950394430669910258235974045300733858418066348342945894248018342676465116881558788630,
  -747810645278640231889257579013212387920894933985514491012944745318438485668556882106463456407297590043011652111292168261487751080,
  -711733118677197731595915721965909353910762452802312234045916536713546850464086302457449537276128825761375208895095740902181348940,
  -673671864504937227024027212755253684415064275115545886457581931369125760462622180403050560506385856821192544311641941018158701170,
  -633732966238850097512580930175007912551898376438962262900027038029180599464180540763293930571043078063480826261308114787948056060,
  -592027740704030144464176159756534339804248169680693675916553329880105783320020376708008965915608030322862315481613959032042919550,
  -548672427808396384372256300387005857440673318324009301644631234106504242385507643974689077465577697204202956236704833255867422830,
  -503787866557717978768087280457308892150980648897875858863978923972696856346423980127094861302035879415632740165012606282304689900,
  -457499158253266690226215260434961508176425775912334217902586697154844425613738426454252100542888154113053974589319080600598512790,
  -409935317810418966722823693755879121014721462678233417214104215916676529703893093092872119022656826406421014924883113512227551790,
  -361228914169794809992312452334048957953413960174839404215970552355924265447376230405843870794747942424512646126964461314156083160,
  -311515700803013700318360149105749750125659237602980341926565033951475932522335780436252405313040351042104371031748890705488038290,
  -260934237342811711610616267414278380003544483433130361644014455068417600229807716397654305595660765572833365847473012696528436730,
  -209625503392036544923366790631491096332050474314493174631143039159435271428415058394745724202431556332460116172607154201001864000,
  -157732505587857968115217856271554304124174624202703188368952302187339516925292573131085744073202302865174036897640695565488948470,
  -105399879016344143836914387761869287053925410936822291703461971807074440792898428629079179518168641750271468765762901648273202910,
  -52773484088310003951680328603338537824700769509178105314022426004846225114073946668485606302749218177855656375602674650049845673,
  0,
  52773484088310003951680328603338537824700769509178105314022426004846225114073946668485606302749218177855656375602674650049845673,
  105399879016344143836914387761869287053925410936822291703461971807074440792898428629079179518168641750271468765762901648273202910,
  157732505587857968115217856271554304124174624202703188368952302187339516925292573131085744073202302865174036897640695565488948470,
  209625503392036544923366790631491096332050474314493174631143039159435271428415058394745724202431556332460116172607154201001864000,
  260934237342811711610616267414278380003544483433130361644014455068417600229807716397654305595660765572833365847473012696528436730,
  311515700803013700318360149105749750125659237602980341926565033951475932522335780436252405313040351042104371031748890705488038290,
  361228914169794809992312452334048957953413960174839404215970552355924265447376230405843870794747942424512646126964461314156083160,
  409935317810418966722823693755879121014721462678233417214104215916676529703893093092872119022656826406421014924883113512227551790,
  457499158253266690226215260434961508176425775912334217902586697154844425613738426454252100542888154113053974589319080600598512790,
  503787866557717978768087280457308892150980648897875858863978923972696856346423980127094861302035879415632740165012606282304689900,
  548672427808396384372256300387005857440673318324009301644631234106504242385507643974689077465577697204202956236704833255867422830,
  592027740704030144464176159756534339804248169680693675916553329880105783320020376708008965915608030322862315481613959032042919550,
  633732966238850097512580930175007912551898376438962262900027038029180599464180540763293930571043078063480826261308114787948056060,
  673671864504937227024027212755253684415064275115545886457581931369125760462622180403050560506385856821192544311641941018158701170,
  711733118677197731595915721965909353910762452802312234045916536713546850464086302457449537276128825761375208895095740902181348940,
  747810645278640231889257579013212387920894933985514491012944745318438485668556882106463456407297590043011652111292168261487751080,
  781803889862360905632678812767482628029666956950394430669910258235974045300733858418066348342945894248018342676465116881558788630,
  813618107288211571435089773821200447410704065089647453703423916783087014945337594208153043617249626786442740590338233572479332120,
  843164625816872201470350953972236638470225960817232192577298915238071609300966806772931520815753782518040172306733226165431960010,
  870361094292882260963426233104145201284186947396187657715117104200706567232020011389638572896259929617289387249356845611849522800,
  895131711743472085364296829462459275029537139409999276567539360426988284316377633938527873009138214449274759849360557235848863200,
  917407438788155281352541485215245826873143490003803993478393681142939719404570124722738678634267920895186576649919145674442112780,
  937126190353453859405138471043289884910602126471147059926692224278852207277232685819955344570402746023907849200026400939070191420,
  954233009376951055863233112185649937073908138274547125631231556650163655333004001786214675715731838532624150314679263185584597170,
  968680221681781531353633339672562057664889443329818485634312291830273915856971002953720187785165960102117782698009652010635170810,
  980427573956715688449607981403267775462557851139703010595845532735972236255478687172038356943658555161512043395181131903264830650,
  989442365133730931782183935022705793473255280023299342569440091363218820657226968352781093086491032409888584293215580542415527600,
  995699640383245964687201823433448307661855776908591227007984199985894847788944776887921233427740077039992301977563502721309898690,
  999183353909294683756424019504678184974225970330022708551072301271655190230774371953085513404573092350739636439422769873242969230]

/-- `case 59` (Util/Gauss_Legendre_Nodes_and_Weights.hpp:8894-9192), `weights`. -/
def weights59 : List Nat := [
  2095492284541223402700731488640059767981293210377136354581042604068605540251873540222301249576826835658556000000000000000000000,
  4872239168265284768582001132924068556042660628866340612558980839897775434902911077162207955316960588750050000000000000000000000,
  7639529453487575142700682974754365257551641208406511496628267271379974130693679950655500538142640570961040000000000000000000000,
  10385885500995862193797874410983040367444829149338006133877462670156352295286950166029880347209743110424520000000000000000000000,
  13103366306345191018319546484216966965564839234007090955695025661989966930268434926020506976630320903319550000000000000000000000,
  15784347313081466147320480397249170373072553868957951906278221887981408041255457837744348333144278664080630000000000000000000000,
  18421342753610029360615751056445318310526848717112240096358004241841097603382613158369263581042909278794930000000000000000000000,
  21006998288437187350461473218669265050689027786511093940734110384845835928207584469261237858327579873932710000000000000000000000,
  23534105393713363425275360078357700298784485038368915202536400936499002927927717172799528262609656742149290000000000000000000000,
  25995619731298500186650506801707932713984809731618023067400297543712513589463359643666600314309935499825212000000000000000000000,
  28384680200534797905152869335388498770314183763042335839215276318137463800245672625453399661359611650908209000000000000000000000,
  30694627836111683239750328192480805359526748005828329620430882766080688605340973010575041273602539367761896400000000000000000000,
  32919024271045277757511264353598808080269876557407825281578578694196709243499999284850186978863882458086831200000000000000000000,
  35051669636400108783718358961078251116725081187857254569080974684887284527793003320923021028821817444343789120000000000000000000,
  37086619818870922691837917035277358278949963949134491468388733741509253263168215386989862313940398125309884310000000000000000000,
  39018203016160009503030777211285513419091837939024416970522282596771494017865251813955323405292437119417938033000000000000000000,
  40841035538686707660202108089469308686006475902893640491709954706516871971864920455880551312071517399621429492800000000000000000,
  42550036811067638667308200484713127445723413345932831153264695757448611692033400214205338531241105415685416990380000000000000000,
  44140443530297380690798084733080968589186332668130717684777897100918453441133571979641477870699907666687429053427000000000000000,
  45607822940509769831868213158374211417994459720461557647079601778411961271469657922107874426325259914001066721478300000000000000,
  46948085186962019193159736482928952238545917474570698026977737450292426750185217968003887702657592240650450139113260000000000000,
  48157494714606440388146829285935783960464218721007911107878044179392578795392697065074691838974927591446833148626031000000000000,
  49232680679361985779693620015024188382863035870523327271900084856900781702349956427866494015073612326390287119260702700000000000,
  50170646342996902810720430442165682143844105715868295286590235980825866425210117773639853303313444933529908249840740913000000000,
  50968777425393916850247968993681010098309609785211989260210323318438417200073952300869052272724139624755403536678473482000000000,
  51624849390891482146439939773422808593764337749268737067112947349471725789023260040265032148723242480764777052503583973470000000,
  52137033648375391383987208307818233874597579879484949760021173463598463735565372868560494957016452934036413657574416389435100000,
  52503902647828739050941322014288465360788058485907530527658790200860293063408909242649664158817361007287413457782682671849230000,
  52724433859127931961304248870612502871883937503544266979224639481349813179476767187784687379640436824378994882507564693764686200,
  52798012621990421415512332430855267299015674402671168439458663063236618206517002337545380009058922814078276727724404628432129387,
  52724433859127931961304248870612502871883937503544266979224639481349813179476767187784687379640436824378994882507564693764686200,
  52503902647828739050941322014288465360788058485907530527658790200860293063408909242649664158817361007287413457782682671849230000,
  52137033648375391383987208307818233874597579879484949760021173463598463735565372868560494957016452934036413657574416389435100000,
  51624849390891482146439939773422808593764337749268737067112947349471725789023260040265032148723242480764777052503583973470000000,
  50968777425393916850247968993681010098309609785211989260210323318438417200073952300869052272724139624755403536678473482000000000,
  50170646342996902810720430442165682143844105715868295286590235980825866425210117773639853303313444933529908249840740913000000000,
  49232680679361985779693620015024188382863035870523327271900084856900781702349956427866494015073612326390287119260702700000000000,
  48157494714606440388146829285935783960464218721007911107878044179392578795392697065074691838974927591446833148626031000000000000,
  46948085186962019193159736482928952238545917474570698026977737450292426750185217968003887702657592240650450139113260000000000000,
  45607822940509769831868213158374211417994459720461557647079601778411961271469657922107874426325259914001066721478300000000000000,
  44140443530297380690798084733080968589186332668130717684777897100918453441133571979641477870699907666687429053427000000000000000,
  42550036811067638667308200484713127445723413345932831153264695757448611692033400214205338531241105415685416990380000000000000000,
  40841035538686707660202108089469308686006475902893640491709954706516871971864920455880551312071517399621429492800000000000000000,
  39018203016160009503030777211285513419091837939024416970522282596771494017865251813955323405292437119417938033000000000000000000,
  37086619818870922691837917035277358278949963949134491468388733741509253263168215386989862313940398125309884310000000000000000000,
  35051669636400108783718358961078251116725081187857254569080974684887284527793003320923021028821817444343789120000000000000000000,
  32919024271045277757511264353598808080269876557407825281578578694196709243499999284850186978863882458086831200000000000000000000,
  30694627836111683239750328192480805359526748005828329620430882766080688605340973010575041273602539367761896400000000000000000000,
  28384680200534797905152869335388498770314183763042335839215276318137463800245672625453399661359611650908209000000000000000000000,
  25995619731298500186650506801707932713984809731618023067400297543712513589463359643666600314309935499825212000000000000000000000,
  23534105393713363425275360078357700298784485038368915202536400936499002927927717172799528262609656742149290000000000000000000000,
  21006998288437187350461473218669265050689027786511093940734110384845835928207584469261237858327579873932710000000000000000000000,
  18421342753610029360615751056445318310526848717112240096358004241841097603382613158369263581042909278794930000000000000000000000,
  15784347313081466147320480397249170373072553868957951906278221887981408041255457837744348333144278664080630000000000000000000000,
  13103366306345191018319546484216966965564839234007090955695025661989966930268434926020506976630320903319550000000000000000000000,
  10385885500995862193797874410983040367444829149338006133877462670156352295286950166029880347209743110424520000000000000000000000,
  7639529453487575142700682974754365257551641208406511496628267271379974130693679950655500538142640570961040000000000000000000000,
  4872239168265284768582001132924068556042660628866340612558980839897775434902911077162207955316960588750050000000000000000000000,
  2095492284541223402700731488640059767981293210377136354581042604068605540251873540222301249576826835658556000000000000000000000]

/-- `case 60` (Util/Gauss_Legendre_Nodes_and_Weights.hpp:9194-9498), `nodes`. -/
def nodes60 : List Int := [
  -999210123227436022034229585797649266398798978711325670692022889082704954423410938746558120188820867130965698719809735448374639690,
  -995840525118838173876746713377440652774890294977139101907483241313080843097771932485314935000581460621874605281719785298076152030,
  -989787895222221717367278987016096042577393153786939040819572563194544282352547044091419196529756215211643291535930660669709936000,
  -981067201752598185618576799826770033880538579221891743496373289113075219893009646549323186173162364949731662689772200800655671440,
  -969701788765052733721544098913794272540934344868247072086327516677303049339352306307975931202096365592109310576870788118398217720,
  -955722255839996107397231845829699502480093744766614219636094906057690584266701267175230062586485015261752264498146295480394590800,
  -939166276116423249495419011609705096419403420401198031548316493714777490372122901023916413922094820703045730502428718125048636550,
  -920078476177627552856656862519896828783768876013706039923229364972363759359752695187932672406697574862954176341329587725225580080,
  -898510310810045941937789329572628330164458442747073824543734004471952166973816868913840835667192966846930780709175683554935075170,
  -874519922646898315129308099912435805159182294435782075857204227765040667423195089392300365075761309481555097324260414489272363570,
  -848171984785929632490515494994375601297528716506778196950988790749152558315139397757498580707647166144189650239937826305266397750,
  -819537526162145759368518108519723571899490518969592509575094668212269368624035506041777788323758175164456153965874435015624700720,
  -788693739932264054569944799777215735246332927879227619635275856172804206709232213442532979087010382170043087087923739398351815340,
  -755723775306585686868842066602373105928900199564707724822893782637247413860833418492448621132215483378649714952764522140515739590,
  -720716513355730399436021061013521077764773994733239043190161388344594376351376756416783068188233084584698742975292136587088576220,
  -683766327381355437222930239224297159087594604338874979879058152148237718831963855515023379301046138251869150149016252356291355220,
  -644972828489477067813447896420444717165190019346660996244655174858789272409889849361142213388375871610793904011008202112718598570,
  -604440597048510363444208776311201720650421053591059838049592762928610225338920909416588952807670223888995554608380210487410543940,
  -562278900753944539178272587485998729063188237659395399597587079056811625238072253201136345511168493007199938887931333816828039280,
  -518601400058569747417889348484721301329846676288685572690805276831491016204501701301375262880893760790710111026971848219457326780,
  -473525841761707111108163053752794638007868005099836889749705799446089862532920954669494309852300891275031899172964930172945414030,
  -427173741583078389307452853530311923353442136184232090208244205534059939355979398803319467701503096290934502467406511036126423780,
  -379670056576797977154952670521887704056374433162389866063863163043100265766525950085218212506257076707590687885904697261466942910,
  -331142848268448194252352965350552704800121496376311202895411904966699490281221066725495729891163935476911261838931073828097370490,
  -281722937423261691690694860339441598308263060795377424355342346919115487710810235238311431755120924274056179966596280606493506320,
  -231543551376029338010344631346755440743539051939585731946031414024939133368140493977394700045324118413655649190005257454224092880,
  -180739964873425417240876941261852631231772168639045492730454103961324980860564622190380566495556941283947974838967568354864060050,
  -129449135396945003146444164649575774759873524366472143415415759138121783206217391158656392530588582367997554675387432719613923210,
  -77809333949536569419285507082225287577594782897723955014218761232495939398619607298347124089734974990920207856976843779183746775,
  -25959772301247798589170385400344825660314760717275225492616640830834467596649106557398472735751042928549024148515156676308572155,
  25959772301247798589170385400344825660314760717275225492616640830834467596649106557398472735751042928549024148515156676308572155,
  77809333949536569419285507082225287577594782897723955014218761232495939398619607298347124089734974990920207856976843779183746775,
  129449135396945003146444164649575774759873524366472143415415759138121783206217391158656392530588582367997554675387432719613923210,
  180739964873425417240876941261852631231772168639045492730454103961324980860564622190380566495556941283947974838967568354864060050,
  231543551376029338010344631346755440743539051939585731946031414024939133368140493977394700045324118413655649190005257454224092880,
  281722937423261691690694860339441598308263060795377424355342346919115487710810235238311431755120924274056179966596280606493506320,
  331142848268448194252352965350552704800121496376311202895411904966699490281221066725495729891163935476911261838931073828097370490,
  379670056576797977154952670521887704056374433162389866063863163043100265766525950085218212506257076707590687885904697261466942910,
  427173741583078389307452853530311923353442136184232090208244205534059939355979398803319467701503096290934502467406511036126423780,
  473525841761707111108163053752794638007868005099836889749705799446089862532920954669494309852300891275031899172964930172945414030,
  518601400058569747417889348484721301329846676288685572690805276831491016204501701301375262880893760790710111026971848219457326780,
  562278900753944539178272587485998729063188237659395399597587079056811625238072253201136345511168493007199938887931333816828039280,
  604440597048510363444208776311201720650421053591059838049592762928610225338920909416588952807670223888995554608380210487410543940,
  644972828489477067813447896420444717165190019346660996244655174858789272409889849361142213388375871610793904011008202112718598570,
  683766327381355437222930239224297159087594604338874979879058152148237718831963855515023379301046138251869150149016252356291355220,
  720716513355730399436021061013521077764773994733239043190161388344594376351376756416783068188233084584698742975292136587088576220,
  755723775306585686868842066602373105928900199564707724822893782637247413860833418492448621132215483378649714952764522140515739590,
  788693739932264054569944799777215735246332927879227619635275856172804206709232213442532979087010382170043087087923739398351815340,
  819537526162145759368518108519723571899490518969592509575094668212269368624035506041777788323758175164456153965874435015624700720,
  848171984785929632490515494994375601297528716506778196950988790749152558315139397757498580707647166144189650239937826305266397750,
  874519922646898315129308099912435805159182294435782075857204227765040667423195089392300365075761309481555097324260414489272363570,
  898510310810045941937789329572628330164458442747073824543734004471952166973816868913840835667192966846930780709175683554935075170,
  920078476177627552856656862519896828783768876013706039923229364972363759359752695187932672406697574862954176341329587725225580080,
  939166276116423249495419011609705096419403420401198031548316493714777490372122901023916413922094820703045730502428718125048636550,
  955722255839996107397231845829699502480093744766614219636094906057690584266701267175230062586485015261752264498146295480394590800,
  969701788765052733721544098913794272540934344868247072086327516677303049339352306307975931202096365592109310576870788118398217720,
  981067201752598185618576799826770033880538579221891743496373289113075219893009646549323186173162364949731662689772200800655671440,
  989787895222221717367278987016096042577393153786939040819572563194544282352547044091419196529756215211643291535930660669709936000,
  995840525118838173876746713377440652774890294977139101907483241313080843097771932485314935000581460621874605281719785298076152030,
  999210123227436022034229585797649266398798978711325670692022889082704954423410938746558120188820867130965698719809735448374639690]

/-- `case 60` (Util/Gauss_Legendre_Nodes_and_Weights.hpp:9194-9498), `weights`. -/
def weights60 : List Nat := [
  2026811968873758496431710209892324695311668225558949907345387657302678678668585208710835897753469031498551000000000000000000000,
  4712729926953568640894821714077235948084970193715060115290618622548088250560139447717095788056567112930910000000000000000000000,
  7389931163345455531516956022086060882228180206225092087604474076802468313955203049307587733211649513169420000000000000000000000,
  10047557182287984357885764377057256499651747487677384343238979280699692124971450376786871199979459697088600000000000000000000000,
  12678166476815960131495379269514234988338364302632945603895403094387371202710505411402182099337030447474400000000000000000000000,
  15274618596784799306726038098825335177909384115072864482392249319250409960584888777807408025614639716025200000000000000000000000,
  17829901014207720260396261248348567633859219583393246901839883931082140669096643543028625502468987649038960000000000000000000000,
  20337120729457286775032147417106301462017112505343903817722680663132485858877813141697536232664385058963730000000000000000000000,
  22789516943997819863783458192900207810167384215208258232903916165543186968279428221515880126037533363431290000000000000000000000,
  25180477621521248379570965972361279131780832944189548614437035464393103686878466855602232586787834187869120000000000000000000000,
  27503556749924791635223197638622247648403470754162177254566956899226986486679875457960014460384205283470618000000000000000000000,
  29752491500788945240836484673487710332475158124107231950632793157007828485177059690347676381256916217285681000000000000000000000,
  31921219019296328949458899536760476766697292282991420981381584758932118011655802147768467686413469591348834300000000000000000000,
  34003892724946422834914401555258741187276223552858876012030611411153277656652056145326627605076155529211597520000000000000000000,
  35994898051084503066578646288062338594242420021003583858115859948257551482802054196925058269100479691356296490000000000000000000,
  37888867569243444030940794209276031810084281063806371543498890285180601535326526659615374263824296266077328903000000000000000000,
  39680695452380799470122834811710008762803511294174218654919518922157323406202513156568832717052758731847290994500000000000000000,
  41365551235584755613163836806658896880187008521510714248679547349101718582403486628162797172419922979536114382760000000000000000,
  42938892835935641954231220656382806949211771964916478989797411902020108376207919573890620739118642136890660546682000000000000000,
  44396478795787113327784164091377369663884985734014298511236459224046505352844197705440567728390714428517209495658900000000000000,
  45734379716114486647196455290909333007934974258684954448856441897855535133745891511020692113315646001286289589594030000000000000,
  46948988848912204847013156394701566275574902583444442924363288609484548272992284052753315384955892474065279733162521000000000000,
  48037031819971180963666652728733653602500029246921956936764325457751727687323542589220444748166202379604910238938458900000000000,
  48995575455756835389475686857894298357583895999090242480585981774314823694110668003707328581933136409836751461850730400000000000,
  49822035690550181011159230893703312479215597243784769733369222584636546075998219816929237121658203366949570857923471682000000000,
  50514184532509374598238735741653643239956162737416628144042869740357450045275189451592223794692780997587371285242408848750000000,
  51070156069855627404549120734491035366197083113671054744508317935634866806798727612659904482586115135958352750760959852235000000,
  51488451500980933995044397177054311733923826659580824803233229058458932406769969612031633193803544421870741379644654831361940000,
  51767943174910187543803643028823732932346945499201564073258536888464371898775161164307824661794745470332221738747032891530842000,
  51907877631220639732864938362269680180151595565640935599487523920815552887675730790195103702144616709476713205538488308419680310,
  51907877631220639732864938362269680180151595565640935599487523920815552887675730790195103702144616709476713205538488308419680310,
  51767943174910187543803643028823732932346945499201564073258536888464371898775161164307824661794745470332221738747032891530842000,
  51488451500980933995044397177054311733923826659580824803233229058458932406769969612031633193803544421870741379644654831361940000,
  51070156069855627404549120734491035366197083113671054744508317935634866806798727612659904482586115135958352750760959852235000000,
  50514184532509374598238735741653643239956162737416628144042869740357450045275189451592223794692780997587371285242408848750000000,
  49822035690550181011159230893703312479215597243784769733369222584636546075998219816929237121658203366949570857923471682000000000,
  48995575455756835389475686857894298357583895999090242480585981774314823694110668003707328581933136409836751461850730400000000000,
  48037031819971180963666652728733653602500029246921956936764325457751727687323542589220444748166202379604910238938458900000000000,
  46948988848912204847013156394701566275574902583444442924363288609484548272992284052753315384955892474065279733162521000000000000,
  45734379716114486647196455290909333007934974258684954448856441897855535133745891511020692113315646001286289589594030000000000000,
  44396478795787113327784164091377369663884985734014298511236459224046505352844197705440567728390714428517209495658900000000000000,
  42938892835935641954231220656382806949211771964916478989797411902020108376207919573890620739118642136890660546682000000000000000,
  41365551235584755613163836806658896880187008521510714248679547349101718582403486628162797172419922979536114382760000000000000000,
  39680695452380799470122834811710008762803511294174218654919518922157323406202513156568832717052758731847290994500000000000000000,
  37888867569243444030940794209276031810084281063806371543498890285180601535326526659615374263824296266077328903000000000000000000,
  35994898051084503066578646288062338594242420021003583858115859948257551482802054196925058269100479691356296490000000000000000000,
  34003892724946422834914401555258741187276223552858876012030611411153277656652056145326627605076155529211597520000000000000000000,
  31921219019296328949458899536760476766697292282991420981381584758932118011655802147768467686413469591348834300000000000000000000,
  29752491500788945240836484673487710332475158124107231950632793157007828485177059690347676381256916217285681000000000000000000000,
  27503556749924791635223197638622247648403470754162177254566956899226986486679875457960014460384205283470618000000000000000000000,
  25180477621521248379570965972361279131780832944189548614437035464393103686878466855602232586787834187869120000000000000000000000,
  22789516943997819863783458192900207810167384215208258232903916165543186968279428221515880126037533363431290000000000000000000000,
  20337120729457286775032147417106301462017112505343903817722680663132485858877813141697536232664385058963730000000000000000000000,
  17829901014207720260396261248348567633859219583393246901839883931082140669096643543028625502468987649038960000000000000000000000,
  15274618596784799306726038098825335177909384115072864482392249319250409960584888777807408025614639716025200000000000000000000000,
  12678166476815960131495379269514234988338364302632945603895403094387371202710505411402182099337030447474400000000000000000000000,
  10047557182287984357885764377057256499651747487677384343238979280699692124971450376786871199979459697088600000000000000000000000,
  7389931163345455531516956022086060882228180206225092087604474076802468313955203049307587733211649513169420000000000000000000000,
  4712729926953568640894821714077235948084970193715060115290618622548088250560139447717095788056567112930910000000000000000000000,
  2026811968873758496431710209892324695311668225558949907345387657302678678668585208710835897753469031498551000000000000000000000]

/-- `case 61` (Util/Gauss_Legendre_Nodes_and_Weights.hpp:9500-9808), `nodes`. -/
def nodes61 : List Int := [
  -999235597631363471731862259569130862853442048503000831387637180257411307187811342997908191045020299460797659924637805621113889990,
  -995974599815120234268012760712288276286848864789131725435628867555216447381719753527690099180922057425661981832123772986058899590,
  -990116745232517050965531685699916501628756781176497313496224327379145896055249221313993214028971363663809684563170321661822704260,
  -981676011284037079685172540751319422160074062094926545577036093443871991667507343781555207066755081445734598891079791918955994510,
  -970674258833182908247408453547910272568336376757530319678455779778759389955560903922246752778385428646548467447351942317879663210,
  -957140151912984091372080287421215261104440340927023510276816291946997407860066343526237713238468516395287885591369045732751635710,
  -941108986681361147477543860977789008280474711058459422119159815275649941207242607715003102193331101728998991394359223871513871680,
  -922622581382955261257551500555845445450635161298717512440507356882210852896704456852486039259466284479681540032579840944524065980,
  -901729162474001170642040042683511164653117521087263577031496214233899536839061211078862123304794222043122323074742886875512777910,
  -878483237214881032478947513893352631459554520280417946156083764697593712936395343519566050386704790187535284189099851443730750960,
  -852945450847663445564846904674170538339953259984460132315788185635725902742757108010822665895790418129234979037733322474684947980,
  -825182428108659950664281892450847527006394659959583126338265296431268079934028856060386117118132809010308762817301488697262356810,
  -795266599282359649152048802752546264873236870205831179252726407176056292194676721134013558794462432373654145394929733065964905260,
  -763276011172312197145914668494350371044519151098621473485822968768260551279720565609227606094688611184256980979910738477583008180,
  -729294123449465109688956690135531798576371014538177348822122784909226160692270517109276575244691100333782778255974707818946747690,
  -693409590894491155499184363960231737284377568546185459899611997597528077474023400351897639049578423778080140993415075124882522830,
  -655716032095070871699185777836306887000847346441682258506641553085660580043644120744044300257815985976329317886572015546982465480,
  -616311785197921724709616859328591035895671683961232724997251928690208077330004893701711955509733127871015645012827038775810627370,
  -575299651350830618600369981944972878997331925337729134589689167811413623272352832525465476883180548187192107120450982373785870950,
  -532786626502925265638481716373071640324819910945474153862767646316649818300567671084859323227004940449300449330704911689740055470,
  -488883622262252118820698511425829597516530924724996168251770852978727617254808008157551777213546872974156192931717019438428063200,
  -443705176538531601995589301065822559382324637472238324031556746445061822516978209303966482594354859922095749409113982858512267700,
  -397369154725756609178291847368589221812872892693721920149923010617810497361483800174538169692057305437968909194604416021471460460,
  -349996442204066834533434477062093849787504617404883982992454846577120928290322593495071600532961729767296613791502098776094971810,
  -301710628963030712604486525456977125241197632870037327545626320717716873138590585425728590288013414289067175284793130277325744830,
  -252637687169053495833690863334405106227510747560059222084923818186005501800872296457251399171241566997618796999348288802192919380,
  -202905642518058499226947203343057054501439051858363433409625499500475074394708179611564443389528615189370541575460330728444923700,
  -152644240230815300529506761773477416883538976617459301423118077318963523601534702368724414633428925062229394925222540742124193440,
  -101984606562274068957208404764365641976789817055751710440689795863911274305516987583392267249617986505880318612064016237399348720,
  -51058906707974349366887500618900798070184254041256538468391741517817033588615786781833554130449485565780737077583329035604299264,
  0,
  51058906707974349366887500618900798070184254041256538468391741517817033588615786781833554130449485565780737077583329035604299264,
  101984606562274068957208404764365641976789817055751710440689795863911274305516987583392267249617986505880318612064016237399348720,
  152644240230815300529506761773477416883538976617459301423118077318963523601534702368724414633428925062229394925222540742124193440,
  202905642518058499226947203343057054501439051858363433409625499500475074394708179611564443389528615189370541575460330728444923700,
  252637687169053495833690863334405106227510747560059222084923818186005501800872296457251399171241566997618796999348288802192919380,
  301710628963030712604486525456977125241197632870037327545626320717716873138590585425728590288013414289067175284793130277325744830,
  349996442204066834533434477062093849787504617404883982992454846577120928290322593495071600532961729767296613791502098776094971810,
  397369154725756609178291847368589221812872892693721920149923010617810497361483800174538169692057305437968909194604416021471460460,
  443705176538531601995589301065822559382324637472238324031556746445061822516978209303966482594354859922095749409113982858512267700,
  488883622262252118820698511425829597516530924724996168251770852978727617254808008157551777213546872974156192931717019438428063200,
  532786626502925265638481716373071640324819910945474153862767646316649818300567671084859323227004940449300449330704911689740055470,
  575299651350830618600369981944972878997331925337729134589689167811413623272352832525465476883180548187192107120450982373785870950,
  616311785197921724709616859328591035895671683961232724997251928690208077330004893701711955509733127871015645012827038775810627370,
  655716032095070871699185777836306887000847346441682258506641553085660580043644120744044300257815985976329317886572015546982465480,
  693409590894491155499184363960231737284377568546185459899611997597528077474023400351897639049578423778080140993415075124882522830,
  729294123449465109688956690135531798576371014538177348822122784909226160692270517109276575244691100333782778255974707818946747690,
  763276011172312197145914668494350371044519151098621473485822968768260551279720565609227606094688611184256980979910738477583008180,
  795266599282359649152048802752546264873236870205831179252726407176056292194676721134013558794462432373654145394929733065964905260,
  825182428108659950664281892450847527006394659959583126338265296431268079934028856060386117118132809010308762817301488697262356810,
  852945450847663445564846904674170538339953259984460132315788185635725902742757108010822665895790418129234979037733322474684947980,
  878483237214881032478947513893352631459554520280417946156083764697593712936395343519566050386704790187535284189099851443730750960,
  901729162474001170642040042683511164653117521087263577031496214233899536839061211078862123304794222043122323074742886875512777910,
  922622581382955261257551500555845445450635161298717512440507356882210852896704456852486039259466284479681540032579840944524065980,
  941108986681361147477543860977789008280474711058459422119159815275649941207242607715003102193331101728998991394359223871513871680,
  957140151912984091372080287421215261104440340927023510276816291946997407860066343526237713238468516395287885591369045732751635710,
  970674258833182908247408453547910272568336376757530319678455779778759389955560903922246752778385428646548467447351942317879663210,
  981676011284037079685172540751319422160074062094926545577036093443871991667507343781555207066755081445734598891079791918955994510,
  990116745232517050965531685699916501628756781176497313496224327379145896055249221313993214028971363663809684563170321661822704260,
  995974599815120234268012760712288276286848864789131725435628867555216447381719753527690099180922057425661981832123772986058899590,
  999235597631363471731862259569130862853442048503000831387637180257411307187811342997908191045020299460797659924637805621113889990]

/-- `case 61` (Util/Gauss_Legendre_Nodes_and_Weights.hpp:9500-9808), `weights`. -/
def weights61 : List Nat := [
  1961453361670282671773064461926848094149294061871497761995178948420076609353011045731966105850488171128800000000000000000000000,
  4560924006012417184538932579742788270813043378315331511986384216234264851460718851993019196507327329538510000000000000000000000,
  7152354991749089585833993091694175571273281667028415041703169249204525243795759510713692042816232201400100000000000000000000000,
  9725461830356133736136671755570118326843346379922026576962570540211761259553629289113715892855171696249200000000000000000000000,
  12273263507812104629277800359526131354492660491425675482418673744440917970867910883419735736664715099384500000000000000000000000,
  14789065884937914546178515781488261260371528533780206799950515021069570076060251702148682171894906140222800000000000000000000000,
  17266292987613743594433212772436621184188054520519271893783653545596335616577868820489721554743220862488800000000000000000000000,
  19698477746101181330517830212684566665796636136043834026944461030743302982555229894921709324209593935009400000000000000000000000,
  22079273148319044002475765628181627436172124082931228644640356967825535369531887991889078392850390688618750000000000000000000000,
  24402467187544202915340659732467532325770198504023600758540667030650012211353703510145388142443966384956520000000000000000000000,
  26661998524150889662810706844968019564055419124120607369976164300926240584360488837446732957879307500084770000000000000000000000,
  28851972088183401504341775545590252543507119934693887449009430803937784686488128282439710344259740299140442000000000000000000000,
  30966674368397394824697946612489383766709271027525384340358651336467503984890944514036570920875033813641688000000000000000000000,
  33000588275907410632723683441004492807408939808150586151782880375883026900002941799017239161836915953442878000000000000000000000,
  34948407516533351090851919209219278255009470941507583644775066844629894403660052020473730073922510328779900110000000000000000000,
  36805050423154817384321042864067460875900723591617713341689914912522054246997952339362223039049090213508532160000000000000000000,
  38565673207008172746152047629653802829222933214957398146073449687612839416003167294144675651428869791160013222000000000000000000,
  40225682590998247367639983757511579155928528524738451424641501612271046701777392209992412304828383510867086159600000000000000000,
  41780747790888492066675572351073007512697374083564787726596766349657057957331496549732534315026357989964911976070000000000000000,
  43226811812496097901043645822682873350296744353813135659157027714607127255162162802116612706052120652354526481238000000000000000,
  44560102035083488271541419831088352933356335194765163061441520735676591985051613679822190718931065623216500524708000000000000000,
  45777140053145959371339833846824791961534814552092103967155052385094365095153647806114060617056397650869262673336430000000000000,
  46874750750809065976429445588590735933714272354396481396930879432600605435099986651415431977272506588851711910289803000000000000,
  47850070585095607161833427518699662713401252970236815883921112759915632461130053099064183572061668295691637505869058000000000000,
  48700555056411526087530088314705606758698372181450576298915130270660841601806047414599545056281469042636032029989355994000000000,
  49423985346735589939968776651116499416659656667748481131440841102213360965007359875655880836661865494767177854133806719800000000,
  50018474108178253425051615006358625442055919236672434012983155607724725122494506313263958428631057465400361954290296543010000000,
  50482470386797404648144465188151269172899152000088669568623444951702610112405188639047062994124678954614069231118557694889100000,
  50814763668818343207700529223478697347842343856567664716730700808766866348395546042153558947776538996541971991937129751059390000,
  51014487038697263543735080573852010768202375423386346813272216945782188825776000486594454370621991409494762243058101435925638000,
  51081119440786217977921095606309852802057626404089278791198921533902667439790703685881044889172835831948883692504127025626354688,
  51014487038697263543735080573852010768202375423386346813272216945782188825776000486594454370621991409494762243058101435925638000,
  50814763668818343207700529223478697347842343856567664716730700808766866348395546042153558947776538996541971991937129751059390000,
  50482470386797404648144465188151269172899152000088669568623444951702610112405188639047062994124678954614069231118557694889100000,
  50018474108178253425051615006358625442055919236672434012983155607724725122494506313263958428631057465400361954290296543010000000,
  49423985346735589939968776651116499416659656667748481131440841102213360965007359875655880836661865494767177854133806719800000000,
  48700555056411526087530088314705606758698372181450576298915130270660841601806047414599545056281469042636032029989355994000000000,
  47850070585095607161833427518699662713401252970236815883921112759915632461130053099064183572061668295691637505869058000000000000,
  46874750750809065976429445588590735933714272354396481396930879432600605435099986651415431977272506588851711910289803000000000000,
  45777140053145959371339833846824791961534814552092103967155052385094365095153647806114060617056397650869262673336430000000000000,
  44560102035083488271541419831088352933356335194765163061441520735676591985051613679822190718931065623216500524708000000000000000,
  43226811812496097901043645822682873350296744353813135659157027714607127255162162802116612706052120652354526481238000000000000000,
  41780747790888492066675572351073007512697374083564787726596766349657057957331496549732534315026357989964911976070000000000000000,
  40225682590998247367639983757511579155928528524738451424641501612271046701777392209992412304828383510867086159600000000000000000,
  38565673207008172746152047629653802829222933214957398146073449687612839416003167294144675651428869791160013222000000000000000000,
  36805050423154817384321042864067460875900723591617713341689914912522054246997952339362223039049090213508532160000000000000000000,
  34948407516533351090851919209219278255009470941507583644775066844629894403660052020473730073922510328779900110000000000000000000,
  33000588275907410632723683441004492807408939808150586151782880375883026900002941799017239161836915953442878000000000000000000000,
  30966674368397394824697946612489383766709271027525384340358651336467503984890944514036570920875033813641688000000000000000000000,
  28851972088183401504341775545590252543507119934693887449009430803937784686488128282439710344259740299140442000000000000000000000,
  26661998524150889662810706844968019564055419124120607369976164300926240584360488837446732957879307500084770000000000000000000000,
  24402467187544202915340659732467532325770198504023600758540667030650012211353703510145388142443966384956520000000000000000000000,
  22079273148319044002475765628181627436172124082931228644640356967825535369531887991889078392850390688618750000000000000000000000,
  19698477746101181330517830212684566665796636136043834026944461030743302982555229894921709324209593935009400000000000000000000000,
  17266292987613743594433212772436621184188054520519271893783653545596335616577868820489721554743220862488800000000000000000000000,
  14789065884937914546178515781488261260371528533780206799950515021069570076060251702148682171894906140222800000000000000000000000,
  12273263507812104629277800359526131354492660491425675482418673744440917970867910883419735736664715099384500000000000000000000000,
  9725461830356133736136671755570118326843346379922026576962570540211761259553629289113715892855171696249200000000000000000000000,
  7152354991749089585833993091694175571273281667028415041703169249204525243795759510713692042816232201400100000000000000000000000,
  4560924006012417184538932579742788270813043378315331511986384216234264851460718851993019196507327329538510000000000000000000000,
  1961453361670282671773064461926848094149294061871497761995178948420076609353011045731966105850488171128800000000000000000000000]

/-- `case 62` (Util/Gauss_Legendre_Nodes_and_Weights.hpp:9810-10124), `nodes`. -/
def nodes62 : List Int := [
  -999259859308777029698408465035798938019634460510221853061395514234187193284023412266355660496757472396162348380198630111151960880,
  -996102296316267132885148430476171492632140217279841957734269157090556808257214052077491573755091046587356492876426392945808156080,
  -990429971189290352428071061860680645002315313677140580032158616713661512468698349370855642614825572148459158798257120862679496710,
  -982255949097236649491103128009792471563001203053950845015982217090333389664962607948477398511482072685047537848026823899647375840,
  -971600723371651806447179482540305835154160553929264677458001938915933389482508486433695457352282694336624896784227368900619809900,
  -958491172973927092029560475165970943317106647782847211158125774757035140547670900924960158785991764893798667842490232318071903020,
  -942960401392328503826364811623351587241418158740212174888109839612961956943683859572219444095746087730759345605853634778824862770,
  -925047635636203755227300130757048619448630524042658124597198560881850905046039375486358904755320307023032723919526994015082692690,
  -904798122521093465758485602428375624398449892610323051748246585386006934992731491738504186205476602219010608497577078241421082840,
  -882263012831897363072686624355829756017125791919386239919130745583694798530593406544926098035730313268959988505392529600420861660,
  -857499231512070922818403320544675506891508937511621746418094277065953023200777055423842090510995345090952446085563083577432516640,
  -830569333604004851345931109477208222919811239495206515632991327319497695717551712465249012812312889016733522666109554374520186380,
  -801541346103976371538505514495386347306189483107850393917556487505374403193626853632476814134628448802887814044829921002934912130,
  -770488596055419318990944694995048188453809265505423986150544465792000689221611550647173476857466054705694112767363238797367018860,
  -737489525283156749860784276501439460280103435631180085735134182610882875449547000794055143429820434420599140155972222270213683740,
  -702627492222297055120972765059986723144031285289579654944805963519827017087717060743188008834155032509752870273675914570444732530,
  -665990561335479446997546034082388079933208584475695868434466749673425742619823176166357793062865257589534227691828315864284880980,
  -627671280646885180726954764916162788587208438303692502618206795402979826126660263535197698345143707305217843545159959280986724250,
  -587766447953087338002149550121987763858197496847643017589874359678076755602432979130529638560467384425616615036687556127448342460,
  -546376866300251095816100384523633707232171091578385675428787620970267384531311972344782949477825297126397817412184039168572767130,
  -503607089344755955917020805931616276965841967296053744210706859419970988362838969945895569405910082054059898159451349441655971170,
  -459565157240113395207143978075752651418602087013646597526531278414527445295359387356839753872526558053774088560309985596545317830,
  -414362323717126048129588750657611345135889299571842247636703224601732383097413227587720755020970038107889215451985244084827484090,
  -368112775046564529663021830952507922017235455535164744660759396937959235468945912327366748976615949039693546020233520456590672260,
  -320933341594194004074101601003456385085858702159362964789869482509024165664292301704871230293895189649266188235100830010963656960,
  -272943202696726343188683627973480980854861620343509936168345986777169292080302335449402969198767640977691488846173311326691103380,
  -224263585604165531668991393344882700608965256717494692654805557727143573684361043420789439425364070951353701833205309946663441180,
  -175017459249015628555687423904236031700507709446447039666543436957945030264265960715354407677285194414178599250251393112112637990,
  -125329223615896808619648999499726257796755400789475804634550890468245093673692099047575226817514180260700546545539127017439466470,
  -75324395496234332763826939117870877576845812314420799837245987759895171153337290201153581245432632427170895939688681622380777562,
  -25129291421820614727088275999146962314504918024814948979120271103223041401212770332489274463580040387484140256232783813485277022,
  25129291421820614727088275999146962314504918024814948979120271103223041401212770332489274463580040387484140256232783813485277022,
  75324395496234332763826939117870877576845812314420799837245987759895171153337290201153581245432632427170895939688681622380777562,
  125329223615896808619648999499726257796755400789475804634550890468245093673692099047575226817514180260700546545539127017439466470,
  175017459249015628555687423904236031700507709446447039666543436957945030264265960715354407677285194414178599250251393112112637990,
  224263585604165531668991393344882700608965256717494692654805557727143573684361043420789439425364070951353701833205309946663441180,
  272943202696726343188683627973480980854861620343509936168345986777169292080302335449402969198767640977691488846173311326691103380,
  320933341594194004074101601003456385085858702159362964789869482509024165664292301704871230293895189649266188235100830010963656960,
  368112775046564529663021830952507922017235455535164744660759396937959235468945912327366748976615949039693546020233520456590672260,
  414362323717126048129588750657611345135889299571842247636703224601732383097413227587720755020970038107889215451985244084827484090,
  459565157240113395207143978075752651418602087013646597526531278414527445295359387356839753872526558053774088560309985596545317830,
  503607089344755955917020805931616276965841967296053744210706859419970988362838969945895569405910082054059898159451349441655971170,
  546376866300251095816100384523633707232171091578385675428787620970267384531311972344782949477825297126397817412184039168572767130,
  587766447953087338002149550121987763858197496847643017589874359678076755602432979130529638560467384425616615036687556127448342460,
  627671280646885180726954764916162788587208438303692502618206795402979826126660263535197698345143707305217843545159959280986724250,
  665990561335479446997546034082388079933208584475695868434466749673425742619823176166357793062865257589534227691828315864284880980,
  702627492222297055120972765059986723144031285289579654944805963519827017087717060743188008834155032509752870273675914570444732530,
  737489525283156749860784276501439460280103435631180085735134182610882875449547000794055143429820434420599140155972222270213683740,
  770488596055419318990944694995048188453809265505423986150544465792000689221611550647173476857466054705694112767363238797367018860,
  801541346103976371538505514495386347306189483107850393917556487505374403193626853632476814134628448802887814044829921002934912130,
  830569333604004851345931109477208222919811239495206515632991327319497695717551712465249012812312889016733522666109554374520186380,
  857499231512070922818403320544675506891508937511621746418094277065953023200777055423842090510995345090952446085563083577432516640,
  882263012831897363072686624355829756017125791919386239919130745583694798530593406544926098035730313268959988505392529600420861660,
  904798122521093465758485602428375624398449892610323051748246585386006934992731491738504186205476602219010608497577078241421082840,
  925047635636203755227300130757048619448630524042658124597198560881850905046039375486358904755320307023032723919526994015082692690,
  942960401392328503826364811623351587241418158740212174888109839612961956943683859572219444095746087730759345605853634778824862770,
  958491172973927092029560475165970943317106647782847211158125774757035140547670900924960158785991764893798667842490232318071903020,
  971600723371651806447179482540305835154160553929264677458001938915933389482508486433695457352282694336624896784227368900619809900,
  982255949097236649491103128009792471563001203053950845015982217090333389664962607948477398511482072685047537848026823899647375840,
  990429971189290352428071061860680645002315313677140580032158616713661512468698349370855642614825572148459158798257120862679496710,
  996102296316267132885148430476171492632140217279841957734269157090556808257214052077491573755091046587356492876426392945808156080,
  999259859308777029698408465035798938019634460510221853061395514234187193284023412266355660496757472396162348380198630111151960880]

/-- `case 62` (Util/Gauss_Legendre_Nodes_and_Weights.hpp:9810-10124), `weights`. -/
def weights62 : List Nat := [
  1899205679513690480397343860935140170878849772368976632304338958684017866499137235967629204215468939910980000000000000000000000,
  4416333456930904813274124255490640729711982130494896165205646530900787542274779679413236018285226337461200000000000000000000000,
  6926041901830960871702824099257067119547213098456121815639823061796861516205752821992860665738331411161200000000000000000000000,
  9418579428420387637937563406566428155433642951566999347858340653875035872842819715280190540753470873735800000000000000000000000,
  11887390117010501944818938966797936527428596269990724363412846835436841023690875511446619617902383325294600000000000000000000000,
  14326191823806517767402882309414596077099946075665478578610379936112404561096119806720462817636333156497500000000000000000000000,
  16728811790177316288550471784092458363131937233429132437554518395958299597296179569663211741128233666732700000000000000000000000,
  19089176658573198732503712482283805774442675047321711506441977858007109628470002360627664120660036161144700000000000000000000000,
  21401322277669968841179089964905277640837520580573330393437407846972954796223379665448374910680595920712100000000000000000000000,
  23659407208682792574516800650534564701431529430840453542766183424345983013688091682537216564519559326148550000000000000000000000,
  25857726954024698027095566553510515594859870025747423290670463508527580476437264427518789264651480772273620000000000000000000000,
  27990728163314637541238292754041304873683808895979296368289229539936978585704534288878531846327152328682300000000000000000000000,
  30053022573989870077009469227062379486228781554535373542451009303432268025488806879984814468162300147273776000000000000000000000,
  32039400581624678106339237278156373130493034862934262631756063119444083724649340621496979055001346503200353300000000000000000000,
  33944844379410545091117477254236057786406541732711470332548129217507351235747985411091696646469308179101195900000000000000000000,
  35764540622768141285587378361722042584598067731173801907984560332443746367756584085013908142844241370584731880000000000000000000,
  37493892582280029985618563518793028234331853167534990435756072848251904287133829292129423992643868248833844814000000000000000000,
  39128531751963084123310801822608860626179914943469479135801005542702596661280659589207170250430239374187084054900000000000000000,
  40664328882417440968285017516663417312986718671668574474252109770942218986004973886921839996193621716565086420300000000000000000,
  42097404410385096643022626903838846010087086419135046729294336988764024609435917157193623050322287825924102714160000000000000000,
  43424138258047419580069230433944304195771329914680606058275313356887870749084243966111543705820676047155151917474000000000000000,
  44641178977124414293644691809137784410348755708076716340097028505327977570320822880590338584850024547099184118322590000000000000,
  45745452214570180777232272297696187670403946377625864642150937978041870529903563922310855433058948451056942188299930000000000000,
  46734168478415524802207055079484778762159783429014455122669590867216093412344939835347300145897431108791897314302541800000000000,
  47604830184101232270450088267866373060737418049497144630855281343842210408594348325972663488737425324819161696062250390000000000,
  48355237963477672834803181478458986762200502462389056181012726425314423168123811868960339090715106068738836695657171305000000000,
  48983496220517837104851127026217372565348902796399749405174733120431940814736775782790554737836989759480446064050089607730000000,
  49488017919699292527865810904774018463633788210957107809650388799287569674032343588876555240287848828771075278155048468304000000,
  49867528594952394244761310634842816888195959045274614209026406761881696525292638369083172831309067188734123864693597724808410000,
  50121069569043288074804100101530968004895319933921361041264265252803171730384125597690384704809734143912401330272507700028402000,
  50248000375256281688402948995135668316504723476565780927788883914922127039255352173732049122111262946015619879298774265632951130,
  50248000375256281688402948995135668316504723476565780927788883914922127039255352173732049122111262946015619879298774265632951130,
  50121069569043288074804100101530968004895319933921361041264265252803171730384125597690384704809734143912401330272507700028402000,
  49867528594952394244761310634842816888195959045274614209026406761881696525292638369083172831309067188734123864693597724808410000,
  49488017919699292527865810904774018463633788210957107809650388799287569674032343588876555240287848828771075278155048468304000000,
  48983496220517837104851127026217372565348902796399749405174733120431940814736775782790554737836989759480446064050089607730000000,
  48355237963477672834803181478458986762200502462389056181012726425314423168123811868960339090715106068738836695657171305000000000,
  47604830184101232270450088267866373060737418049497144630855281343842210408594348325972663488737425324819161696062250390000000000,
  46734168478415524802207055079484778762159783429014455122669590867216093412344939835347300145897431108791897314302541800000000000,
  45745452214570180777232272297696187670403946377625864642150937978041870529903563922310855433058948451056942188299930000000000000,
  44641178977124414293644691809137784410348755708076716340097028505327977570320822880590338584850024547099184118322590000000000000,
  43424138258047419580069230433944304195771329914680606058275313356887870749084243966111543705820676047155151917474000000000000000,
  42097404410385096643022626903838846010087086419135046729294336988764024609435917157193623050322287825924102714160000000000000000,
  40664328882417440968285017516663417312986718671668574474252109770942218986004973886921839996193621716565086420300000000000000000,
  39128531751963084123310801822608860626179914943469479135801005542702596661280659589207170250430239374187084054900000000000000000,
  37493892582280029985618563518793028234331853167534990435756072848251904287133829292129423992643868248833844814000000000000000000,
  35764540622768141285587378361722042584598067731173801907984560332443746367756584085013908142844241370584731880000000000000000000,
  33944844379410545091117477254236057786406541732711470332548129217507351235747985411091696646469308179101195900000000000000000000,
  32039400581624678106339237278156373130493034862934262631756063119444083724649340621496979055001346503200353300000000000000000000,
  30053022573989870077009469227062379486228781554535373542451009303432268025488806879984814468162300147273776000000000000000000000,
  27990728163314637541238292754041304873683808895979296368289229539936978585704534288878531846327152328682300000000000000000000000,
  25857726954024698027095566553510515594859870025747423290670463508527580476437264427518789264651480772273620000000000000000000000,
  23659407208682792574516800650534564701431529430840453542766183424345983013688091682537216564519559326148550000000000000000000000,
  21401322277669968841179089964905277640837520580573330393437407846972954796223379665448374910680595920712100000000000000000000000,
  19089176658573198732503712482283805774442675047321711506441977858007109628470002360627664120660036161144700000000000000000000000,
  16728811790177316288550471784092458363131937233429132437554518395958299597296179569663211741128233666732700000000000000000000000,
  14326191823806517767402882309414596077099946075665478578610379936112404561096119806720462817636333156497500000000000000000000000,
  11887390117010501944818938966797936527428596269990724363412846835436841023690875511446619617902383325294600000000000000000000000,
  9418579428420387637937563406566428155433642951566999347858340653875035872842819715280190540753470873735800000000000000000000000,
  6926041901830960871702824099257067119547213098456121815639823061796861516205752821992860665738331411161200000000000000000000000,
  4416333456930904813274124255490640729711982130494896165205646530900787542274779679413236018285226337461200000000000000000000000,
  1899205679513690480397343860935140170878849772368976632304338958684017866499137235967629204215468939910980000000000000000000000]

/-- `case 63` (Util/Gauss_Legendre_Nodes_and_Weights.hpp:10126-10444), `nodes`. -/
def nodes63 : List Int := [
  -999282984029123780378936140928944461072796718186242813151756152711268400178640049270806574060801388124691681216096817715505734260,
  -996224012777970108602193361146311353293076971857523297876321666391617065398344319527897601678577717804136698136240438085416256470,
  -990728546892189466810894667204703453054262265350327779766831566397172509652501103108001709065912233670883100055732339911753842120,
  -982808810593727234862511405691611739202599161956207341995305733840624276673878887312920098345011316702680000221599369048607676660,
  -972484034697570022801960678576810948164976541203097838252294263660426698513607098653314109430008123326451395339527594871356500680,
  -959779449758941927070354166258988969165416503161655426914310020972383812483280621638967202938977211913699404436330354725299363900,
  -944726134041009802966375319627500663744580688957766981799363661387054192593348837891198959701386107707283490024424142017204253870,
  -927360920621843205447031381325121569456054361068601917517110026008313083670080819543383151141777631172600115768185559507282724840,
  -907726302778531558036953132915953225547793928275658208217694253378510918321805314259024674247157412235195121667237956224305046580,
  -885870328507853426290298457313369875149868469487853716560423124568414704505333052596015510044373134366896083011476063165414595320,
  -861846482364123719539611839431059953996536225216268313835892667637940101356633203306262995830709836256639373667856763798408861270,
  -835713554319502843471807769615705452823614477583885981400065929859300212929780732083094985199380436469418954963144623729243255660,
  -807535495773456760051465986363243134594192360777496300057321006960170670816172673956509407600830814010452560154169979182186591400,
  -777381262990372335563330189911042755759799142048102002541196950260495375914767990279030117644494234575983072535999945566105547960,
  -745324648317847417829321661037587632314602947261940725735029631836616178144413527913862011013249867753772916632323578245557595510,
  -711444099584845807851431537704014879128282511787012491953401077781390632510733567461273174836391806688585666391492251789395964790,
  -675822528114986090131103315969544508779811254723799706474236398866148188588493123703863937479631719800440714528313049159218854850,
  -638547105821365385000306953873376481233294924613181639561582865160176993703148075670106418110102356218897442430485446379718267490,
  -599709051877625235739008926868799861071169523997529145627108971004621676273271074516804820674766968816462634764750958107993003120,
  -559403409486285013267697800070054696540528415606657527336987465758803951273908718316873147074373476363237691735803072719901439550,
  -517728813290033248124477584526315535577373955021748350463161746015683545866597913372437237788942679617320680770894931918614329280,
  -474787247994804399922212309851494749286017958969733169667118362251159114618244183247401129679470187165705975838570517649342816770,
  -430683798795111600662088933918629982066481417200037325284779452923173120890669812855441667367316043632299469226308287065677908190,
  -385526394212247892477615022274398150275045705437133427407059179542784059913537166458328453258550564989053639645643656414387545810,
  -339425541974584402468834431594315085043918046718704485271484201453914052476124418823722097555296314908013188853674253099533460150,
  -292494058586251440036157155550666923689345871938842369706045524871298007081607409315759647401030928525812885087787860277763353600,
  -244846793245953362748404593924829370148342175358214832799033766946433477350279374608670122909304948619591144911038957145798962160,
  -196600346791506684557627457065717697920783005803492759888550472018607172743527496535411947192806427531794864205169492204458242030,
  -147872786357871968569839096552972943441463664083963029117349006656639343835050739942705499130357750045011452884835710926807861520,
  -98783356446945279529703669453922103439558601178943217292233098832364686321162363545275896886551263512905168177560864883547601168,
  -49452187116159627234233818051807609897755456899915946063163012003374246991309124489887194293575135661926872145791220523200048552,
  0,
  49452187116159627234233818051807609897755456899915946063163012003374246991309124489887194293575135661926872145791220523200048552,
  98783356446945279529703669453922103439558601178943217292233098832364686321162363545275896886551263512905168177560864883547601168,
  147872786357871968569839096552972943441463664083963029117349006656639343835050739942705499130357750045011452884835710926807861520,
  196600346791506684557627457065717697920783005803492759888550472018607172743527496535411947192806427531794864205169492204458242030,
  244846793245953362748404593924829370148342175358214832799033766946433477350279374608670122909304948619591144911038957145798962160,
  292494058586251440036157155550666923689345871938842369706045524871298007081607409315759647401030928525812885087787860277763353600,
  339425541974584402468834431594315085043918046718704485271484201453914052476124418823722097555296314908013188853674253099533460150,
  385526394212247892477615022274398150275045705437133427407059179542784059913537166458328453258550564989053639645643656414387545810,
  430683798795111600662088933918629982066481417200037325284779452923173120890669812855441667367316043632299469226308287065677908190,
  474787247994804399922212309851494749286017958969733169667118362251159114618244183247401129679470187165705975838570517649342816770,
  517728813290033248124477584526315535577373955021748350463161746015683545866597913372437237788942679617320680770894931918614329280,
  559403409486285013267697800070054696540528415606657527336987465758803951273908718316873147074373476363237691735803072719901439550,
  599709051877625235739008926868799861071169523997529145627108971004621676273271074516804820674766968816462634764750958107993003120,
  638547105821365385000306953873376481233294924613181639561582865160176993703148075670106418110102356218897442430485446379718267490,
  675822528114986090131103315969544508779811254723799706474236398866148188588493123703863937479631719800440714528313049159218854850,
  711444099584845807851431537704014879128282511787012491953401077781390632510733567461273174836391806688585666391492251789395964790,
  745324648317847417829321661037587632314602947261940725735029631836616178144413527913862011013249867753772916632323578245557595510,
  777381262990372335563330189911042755759799142048102002541196950260495375914767990279030117644494234575983072535999945566105547960,
  807535495773456760051465986363243134594192360777496300057321006960170670816172673956509407600830814010452560154169979182186591400,
  835713554319502843471807769615705452823614477583885981400065929859300212929780732083094985199380436469418954963144623729243255660,
  861846482364123719539611839431059953996536225216268313835892667637940101356633203306262995830709836256639373667856763798408861270,
  885870328507853426290298457313369875149868469487853716560423124568414704505333052596015510044373134366896083011476063165414595320,
  907726302778531558036953132915953225547793928275658208217694253378510918321805314259024674247157412235195121667237956224305046580,
  927360920621843205447031381325121569456054361068601917517110026008313083670080819543383151141777631172600115768185559507282724840,
  944726134041009802966375319627500663744580688957766981799363661387054192593348837891198959701386107707283490024424142017204253870,
  959779449758941927070354166258988969165416503161655426914310020972383812483280621638967202938977211913699404436330354725299363900,
  972484034697570022801960678576810948164976541203097838252294263660426698513607098653314109430008123326451395339527594871356500680,
  982808810593727234862511405691611739202599161956207341995305733840624276673878887312920098345011316702680000221599369048607676660,
  990728546892189466810894667204703453054262265350327779766831566397172509652501103108001709065912233670883100055732339911753842120,
  996224012777970108602193361146311353293076971857523297876321666391617065398344319527897601678577717804136698136240438085416256470,
  999282984029123780378936140928944461072796718186242813151756152711268400178640049270806574060801388124691681216096817715505734260]

/-- `case 63` (Util/Gauss_Legendre_Nodes_and_Weights.hpp:10126-10444), `weights`. -/
def weights63 : List Nat := [
  1839874595577084117092445554043923852638472338840242480644268938179143365018867962253657842862216746234730000000000000000000000,
  4278508346863761866078411082622785517127472670875211402338215568233621970878753985876056698833481324156200000000000000000000000,
  6710291765960136251906930729728803973436028555716110243797176206161819795240140158239205680807158218554000000000000000000000000,
  9125968676326656354058645421759954849692417788375349669674385340929380288861266570749387445488698089988000000000000000000000000,
  11519376076880041750750606148618064841588793945388983235703970478206558576277131304574282962263555915867000000000000000000000000,
  13884612616115610824866086367624434919277658253490647549069662728811586019103916627866424744732661507660000000000000000000000000,
  16215878410338338882283672975130914915815603829930900970890493908075020866076276022169349273252791813523000000000000000000000000,
  18507464460161270409260545805157963110238921417631285433568777477270737552535861498520186221492750023413700000000000000000000000,
  20753761258039090775341953421473153347813264878441821120901437972435181598273648827470305640814584792865800000000000000000000000,
  22949271004889933148942319561770505891047499919086828429204742270147945361090620878112743606731580306655900000000000000000000000,
  25088620553344986618630138068443356102353807447633572447456498107458588319143126103394636483296487867614030000000000000000000000,
  27166574359097933225189839439412726606642683986629127484564903762059970657630509825002983801882680871531040000000000000000000000,
  29178047208280526945551502154028802282940945920805426830355067718396086066199199456152491147176574969103183000000000000000000000,
  31118116622219817508215988557188582024911189532915112650972723063990492851796227103635323390576375268814797000000000000000000000,
  32982034883779341765683179672459307137794216157277855590624524327736339564870541122065543516311265555436139500000000000000000000,
  34765240645355877697180504642788157107073302494147194323679761556617823040303148226030288935406982431286595080000000000000000000,
  36463370085457289630452409787541791831832950254296511229934330076167297250555032539599050953632623406490929930000000000000000000,
  38072267584349556763638324927889218627303357254175429490592215315559950834267918152240194724895581540218794023000000000000000000,
  39587995891544093984807928149202364454194939114102438808364361925964739323086388066286495428399325106740474030200000000000000000,
  41006845759666398635110037009072350740177966212499303931598479532951378408390679423069682570604542206992383589210000000000000000,
  42325345020815822982505485403027456482843378914196375089989674621569471503978246621351571093242768365783029595135000000000000000,
  43540267083027590798964315704401139640931211928380538094130669975117351146738577214410194286883559106924980152784600000000000000,
  44648638825941395370332669516813393234100563562520333654327272726648890028670098265714192831167964238984223742109040000000000000,
  45647747876292608685885992608542522426607323938963929813865260016550252082545173089984606188567037922736617217228196000000000000,
  46535149245383696510395418746953187227822477173798421676589374874651893843013086353809614075095075824961637592982014800000000000,
  47308671312268919080604988338844062386620001972645718119849484126788841209482574171044423099121680666937398226551700397000000000,
  47966421137995131411052756195132253610684921432146580592840153914597414707944084628637813238748020134255151744575321257100000000,
  48506789097883847864090099145801582027591769247826654965044739494502379657379354379987351346148942718588899188964357103350000000,
  48928452820511989944709361549214821232525809981615268168661926155278183565431249937327498446228852366944675032316396573475200000,
  49230380423747560785043116988144587591876532819914223281124623513398625985685731550897670862589413691082377859421474655839490000,
  49411833039918178967039646116704859697728390084540969599916881955288328885741254114866312823543408856795742134521880223836693500,
  49472366623931020888669360420925944613532253942383267239447884700509411347582631637320921278402716285717185415466330130135476800,
  49411833039918178967039646116704859697728390084540969599916881955288328885741254114866312823543408856795742134521880223836693500,
  49230380423747560785043116988144587591876532819914223281124623513398625985685731550897670862589413691082377859421474655839490000,
  48928452820511989944709361549214821232525809981615268168661926155278183565431249937327498446228852366944675032316396573475200000,
  48506789097883847864090099145801582027591769247826654965044739494502379657379354379987351346148942718588899188964357103350000000,
  47966421137995131411052756195132253610684921432146580592840153914597414707944084628637813238748020134255151744575321257100000000,
  47308671312268919080604988338844062386620001972645718119849484126788841209482574171044423099121680666937398226551700397000000000,
  46535149245383696510395418746953187227822477173798421676589374874651893843013086353809614075095075824961637592982014800000000000,
  45647747876292608685885992608542522426607323938963929813865260016550252082545173089984606188567037922736617217228196000000000000,
  44648638825941395370332669516813393234100563562520333654327272726648890028670098265714192831167964238984223742109040000000000000,
  43540267083027590798964315704401139640931211928380538094130669975117351146738577214410194286883559106924980152784600000000000000,
  42325345020815822982505485403027456482843378914196375089989674621569471503978246621351571093242768365783029595135000000000000000,
  41006845759666398635110037009072350740177966212499303931598479532951378408390679423069682570604542206992383589210000000000000000,
  39587995891544093984807928149202364454194939114102438808364361925964739323086388066286495428399325106740474030200000000000000000,
  38072267584349556763638324927889218627303357254175429490592215315559950834267918152240194724895581540218794023000000000000000000,
  36463370085457289630452409787541791831832950254296511229934330076167297250555032539599050953632623406490929930000000000000000000,
  34765240645355877697180504642788157107073302494147194323679761556617823040303148226030288935406982431286595080000000000000000000,
  32982034883779341765683179672459307137794216157277855590624524327736339564870541122065543516311265555436139500000000000000000000,
  31118116622219817508215988557188582024911189532915112650972723063990492851796227103635323390576375268814797000000000000000000000,
  29178047208280526945551502154028802282940945920805426830355067718396086066199199456152491147176574969103183000000000000000000000,
  27166574359097933225189839439412726606642683986629127484564903762059970657630509825002983801882680871531040000000000000000000000,
  25088620553344986618630138068443356102353807447633572447456498107458588319143126103394636483296487867614030000000000000000000000,
  22949271004889933148942319561770505891047499919086828429204742270147945361090620878112743606731580306655900000000000000000000000,
  20753761258039090775341953421473153347813264878441821120901437972435181598273648827470305640814584792865800000000000000000000000,
  18507464460161270409260545805157963110238921417631285433568777477270737552535861498520186221492750023413700000000000000000000000,
  16215878410338338882283672975130914915815603829930900970890493908075020866076276022169349273252791813523000000000000000000000000,
  13884612616115610824866086367624434919277658253490647549069662728811586019103916627866424744732661507660000000000000000000000000,
  11519376076880041750750606148618064841588793945388983235703970478206558576277131304574282962263555915867000000000000000000000000,
  9125968676326656354058645421759954849692417788375349669674385340929380288861266570749387445488698089988000000000000000000000000,
  6710291765960136251906930729728803973436028555716110243797176206161819795240140158239205680807158218554000000000000000000000000,
  4278508346863761866078411082622785517127472670875211402338215568233621970878753985876056698833481324156200000000000000000000000,
  1839874595577084117092445554043923852638472338840242480644268938179143365018867962253657842862216746234730000000000000000000000]

/-- `case 64` (Util/Gauss_Legendre_Nodes_and_Weights.hpp:10446-10770), `nodes`. -/
def nodes64 : List Int := [
  -999305041735772139456905624345636311969712191675608776062807295461764654350533199784324237646263943494537677651217026531401123250,
  -996340116771955279346924500676399123209857506340226612135252219950703056820220853094606680102170391630151179465831073539756734100,
  -991013371476744320739382383443303113641349445390790485222542745937813165864412999734510895013377043434033015128910015009701833250,
  -983336253884625956931299302156831116945247506623740383746487213123342612841547053560655972133081800358553262812484566289741068470,
  -973326827789910963741853507352272668026145294455174175881913978197815225695845374999496603815412554761220790310502017617242023770,
  -961008799652053718918614121897157206762114611037845949446158615862391994548899256397678080686620378621600149878831071455284746970,
  -946411374858402816062481491347264795279394971795233190231778971297366440214943659126092817918842053351626414275545215972372278620,
  -929569172131939575821490154559225607347427014429715497592811683361243098626559451599883449935584473668651280512968821499204759710,
  -910522137078502805756380668008329861013488084888364029253172371446710223455629196817901877578030845802430210384845131274166382060,
  -889315445995114105853404038272851622429194461510452189319474456608481109057772252640044591062371148059052953318883210598865726940,
  -865999398154092819760783385070157502412501918758249642566427951180835671312218856785745684203490636257345381587891395104019491600,
  -840629296252580362751691544695873302982489823801755353928202683075593465893922171840726147868117503717663799561956411215937924130,
  -813265315122797559741923338086303340698141822565597216695648514935658634608201987030928012841141293641142361476791875684338099940,
  -783972358943341407610220525213768284056414124989825933413275961747681657870509850935711619060800232589534820761175298733538549490,
  -752819907260531896611863774885693985551714271322087193246198776116772263963696853939041358300946792499590514715392328634769386490,
  -719881850171610826848940217831947244758138003314901952622047315118446859248643364604230091926249890288217989149472404674792154460,
  -685236313054233242563558371031376301935641078539671868132404274991361197654896733264762554123415541303507573934886323324085170930,
  -648965471254657339857761231993404885529690433473201172879250262436605759886573823977316662782635887169914253185393052586683093340,
  -611155355172393250248852971018548918696124559307971844336797666693308837465028814844866787983070386772657772066649177256011036820,
  -571895646202634034283878116659188643183191006091250993227328471941891221264322332759741773584477697264816382122520726614526339590,
  -531279464019894545658013903544455247408525588734180238053268047166041778398245121448843253296460411619816073385211875151397248940,
  -489403145707052957478526307021921390849373297463739837331654079324031558553758484475285108711558183344315883165775950191674492720,
  -446366017253464087984947714758915189206750757826250176308260682021293762697079129573593738481394147361023885473686396683146469490,
  -402270157963991603695766771260158848713265205615020808276043184312908721496726151596966970897099022166950821708955571480601204650,
  -357220158337668115950442615046202531626264464640909112021237019340099177403802509741325589540743874845093675632547750287037622830,
  -311322871990210956157512698560156883557715357868050126995457170985816909886839826871965499946014970975780458298807774760553289610,
  -264687162208767416373964172510020117980413136295093243955989544812620642945285298201645090164980544599907872871494369262233001630,
  -217423643740007084149648748988822617578485831141222348630380401885689634737659235537163737740243604800759921292790013642836998200,
  -169644420423992818037313629748269844199990266734377850589417874688434235779650559132592580110683412760239662462774620849883819060,
  -121462819296120554470376463492247878218683638337191294042349582600693183224507094421395223688969023767966112284862635243711592510,
  -72993121787799039449542941940337493244126181668778853356316332337739521725442905018183306496750547880213476800767845861295645913,
  -24350292663424432508955842853715661426887109314975809163453166396056696516629528852985306165711689488237049301367171756047992668,
  24350292663424432508955842853715661426887109314975809163453166396056696516629528852985306165711689488237049301367171756047992668,
  72993121787799039449542941940337493244126181668778853356316332337739521725442905018183306496750547880213476800767845861295645913,
  121462819296120554470376463492247878218683638337191294042349582600693183224507094421395223688969023767966112284862635243711592510,
  169644420423992818037313629748269844199990266734377850589417874688434235779650559132592580110683412760239662462774620849883819060,
  217423643740007084149648748988822617578485831141222348630380401885689634737659235537163737740243604800759921292790013642836998200,
  264687162208767416373964172510020117980413136295093243955989544812620642945285298201645090164980544599907872871494369262233001630,
  311322871990210956157512698560156883557715357868050126995457170985816909886839826871965499946014970975780458298807774760553289610,
  357220158337668115950442615046202531626264464640909112021237019340099177403802509741325589540743874845093675632547750287037622830,
  402270157963991603695766771260158848713265205615020808276043184312908721496726151596966970897099022166950821708955571480601204650,
  446366017253464087984947714758915189206750757826250176308260682021293762697079129573593738481394147361023885473686396683146469490,
  489403145707052957478526307021921390849373297463739837331654079324031558553758484475285108711558183344315883165775950191674492720,
  531279464019894545658013903544455247408525588734180238053268047166041778398245121448843253296460411619816073385211875151397248940,
  571895646202634034283878116659188643183191006091250993227328471941891221264322332759741773584477697264816382122520726614526339590,
  611155355172393250248852971018548918696124559307971844336797666693308837465028814844866787983070386772657772066649177256011036820,
  648965471254657339857761231993404885529690433473201172879250262436605759886573823977316662782635887169914253185393052586683093340,
  685236313054233242563558371031376301935641078539671868132404274991361197654896733264762554123415541303507573934886323324085170930,
  719881850171610826848940217831947244758138003314901952622047315118446859248643364604230091926249890288217989149472404674792154460,
  752819907260531896611863774885693985551714271322087193246198776116772263963696853939041358300946792499590514715392328634769386490,
  783972358943341407610220525213768284056414124989825933413275961747681657870509850935711619060800232589534820761175298733538549490,
  813265315122797559741923338086303340698141822565597216695648514935658634608201987030928012841141293641142361476791875684338099940,
  840629296252580362751691544695873302982489823801755353928202683075593465893922171840726147868117503717663799561956411215937924130,
  865999398154092819760783385070157502412501918758249642566427951180835671312218856785745684203490636257345381587891395104019491600,
  889315445995114105853404038272851622429194461510452189319474456608481109057772252640044591062371148059052953318883210598865726940,
  910522137078502805756380668008329861013488084888364029253172371446710223455629196817901877578030845802430210384845131274166382060,
  929569172131939575821490154559225607347427014429715497592811683361243098626559451599883449935584473668651280512968821499204759710,
  946411374858402816062481491347264795279394971795233190231778971297366440214943659126092817918842053351626414275545215972372278620,
  961008799652053718918614121897157206762114611037845949446158615862391994548899256397678080686620378621600149878831071455284746970,
  973326827789910963741853507352272668026145294455174175881913978197815225695845374999496603815412554761220790310502017617242023770,
  983336253884625956931299302156831116945247506623740383746487213123342612841547053560655972133081800358553262812484566289741068470,
  991013371476744320739382383443303113641349445390790485222542745937813165864412999734510895013377043434033015128910015009701833250,
  996340116771955279346924500676399123209857506340226612135252219950703056820220853094606680102170391630151179465831073539756734100,
  999305041735772139456905624345636311969712191675608776062807295461764654350533199784324237646263943494537677651217026531401123250]

/-- `case 64` (Util/Gauss_Legendre_Nodes_and_Weights.hpp:10446-10770), `weights`. -/
def weights64 : List Nat := [
  1783280721696432947296079144971933179959347271927955669530806365585854695423980348669821580215034828274500000000000000000000000,
  4147033260562467635287535728551415313302819253684802462876366143183477669015739377682093310618713759201000000000000000000000000,
  6504457968978362856117360399981266771131761054952340095244879257568512571761306820353052649111329604941000000000000000000000000,
  8846759826363947723030914659730647695176266079220499798471576929611038000598536734169428632255052015617000000000000000000000000,
  11168139460131128818590493019208135072778797816827287215251362273969701224836131369547661822970774719522000000000000000000000000,
  13463047896718642598060766685955684108425771977349670818468278522198359889466626848969783705610503848585000000000000000000000000,
  15726030476024719321965995297539794426029009843156512152894393228421050216412455652574562847632699718948000000000000000000000000,
  17951715775697343085045302001119368897167357036415857297718427356924729587062098474308914057919927210797000000000000000000000000,
  20134823153530209372340316728543897089526680100791951922007234327676982821192359798229949841699859799544000000000000000000000000,
  22270173808383254159298330384155002422959290599759405145520542974491446086708199011664798281145113859240100000000000000000000000,
  24352702568710873338177550409068987649978415513378411981998568553553678708377072373726482846446422327615600000000000000000000000,
  26377469715054658671691792625225185675599330842245718449615673685302159242896779028478048721365348086762040000000000000000000000,
  28339672614259483227511305200237351981207584125754335990795518508450017571288071290183457981647626939301340000000000000000000000,
  30234657072402478867974059819548659158281397768481241636026542045969161851838118212761980885178641520596874000000000000000000000,
  32057928354851553585467504347898716966221573881398062250169407854535275399124366530227987935629046729162365000000000000000000000,
  33805161837141609391565482110725431021049926314004534667550065040032372774578585373045280896394409869193634400000000000000000000,
  35472213256882383810693146715245947948094631002410094692651484819938111365139296239992299626808788450914342100000000000000000000,
  37055128540240046040415101809583375083464945305656302174753627202809156212296668717830264664906683296060937047000000000000000000,
  38550153178615629128962496946808991012787112201718031966237885408800527132368268139441854044292836309054521456000000000000000000,
  39953741132720341386656926128336073918676950670333630111403702698157054367043033326030739035728760611101758875800000000000000000,
  41262563242623528610156297473638047739930635530547410542903477912270495117804591446326703503283233616181654742010000000000000000,
  42473515123653589007339767908817366165546648180649669731460772205524543348716932718239898855367012835878750758246000000000000000,
  43583724529323453376827860973737480922788897497118015053219392550256949902002180393644881593756707999140185547739100000000000000,
  44590558163756563060134710030944843294023799991221725643219328686194836337776108956958567887593285723766909694185408000000000000,
  45491627927418144479770996971269058887323461802399896816883408160650463761808210275095450714249770677505542436445374100000000000,
  46284796581314417295953249232261184969650307532446800777834081836469886177460698624424153910568532108851714294757929150000000000,
  46968182816210017325326285754581075199897528473812564982924088686190050018180080743701238163030219887692564246183069403000000000,
  47540165714830308662282206944223171640825251262538752158474031878473519131234958604197132561854366007668236956430473848760000000,
  47999388596458307728126179871346069954316713471493620944632393093333521461965027758813856850410342760928314672847045504136000000,
  48344762234802957169769527158017809703692550609501080629442201445249828946429202156764153264348308119169811534137999799779910000,
  48575467441503426934799066783978113687556544704929485711151676102515819309369703922916342763393041018623214908392368816276149000,
  48690957009139720383365390734749912442628692283874330508668804245691419099824610731029156564567605740160707993984515600517225700,
  48690957009139720383365390734749912442628692283874330508668804245691419099824610731029156564567605740160707993984515600517225700,
  48575467441503426934799066783978113687556544704929485711151676102515819309369703922916342763393041018623214908392368816276149000,
  48344762234802957169769527158017809703692550609501080629442201445249828946429202156764153264348308119169811534137999799779910000,
  47999388596458307728126179871346069954316713471493620944632393093333521461965027758813856850410342760928314672847045504136000000,
  47540165714830308662282206944223171640825251262538752158474031878473519131234958604197132561854366007668236956430473848760000000,
  46968182816210017325326285754581075199897528473812564982924088686190050018180080743701238163030219887692564246183069403000000000,
  46284796581314417295953249232261184969650307532446800777834081836469886177460698624424153910568532108851714294757929150000000000,
  45491627927418144479770996971269058887323461802399896816883408160650463761808210275095450714249770677505542436445374100000000000,
  44590558163756563060134710030944843294023799991221725643219328686194836337776108956958567887593285723766909694185408000000000000,
  43583724529323453376827860973737480922788897497118015053219392550256949902002180393644881593756707999140185547739100000000000000,
  42473515123653589007339767908817366165546648180649669731460772205524543348716932718239898855367012835878750758246000000000000000,
  41262563242623528610156297473638047739930635530547410542903477912270495117804591446326703503283233616181654742010000000000000000,
  39953741132720341386656926128336073918676950670333630111403702698157054367043033326030739035728760611101758875800000000000000000,
  38550153178615629128962496946808991012787112201718031966237885408800527132368268139441854044292836309054521456000000000000000000,
  37055128540240046040415101809583375083464945305656302174753627202809156212296668717830264664906683296060937047000000000000000000,
  35472213256882383810693146715245947948094631002410094692651484819938111365139296239992299626808788450914342100000000000000000000,
  33805161837141609391565482110725431021049926314004534667550065040032372774578585373045280896394409869193634400000000000000000000,
  32057928354851553585467504347898716966221573881398062250169407854535275399124366530227987935629046729162365000000000000000000000,
  30234657072402478867974059819548659158281397768481241636026542045969161851838118212761980885178641520596874000000000000000000000,
  28339672614259483227511305200237351981207584125754335990795518508450017571288071290183457981647626939301340000000000000000000000,
  26377469715054658671691792625225185675599330842245718449615673685302159242896779028478048721365348086762040000000000000000000000,
  24352702568710873338177550409068987649978415513378411981998568553553678708377072373726482846446422327615600000000000000000000000,
  22270173808383254159298330384155002422959290599759405145520542974491446086708199011664798281145113859240100000000000000000000000,
  20134823153530209372340316728543897089526680100791951922007234327676982821192359798229949841699859799544000000000000000000000000,
  17951715775697343085045302001119368897167357036415857297718427356924729587062098474308914057919927210797000000000000000000000000,
  15726030476024719321965995297539794426029009843156512152894393228421050216412455652574562847632699718948000000000000000000000000,
  13463047896718642598060766685955684108425771977349670818468278522198359889466626848969783705610503848585000000000000000000000000,
  11168139460131128818590493019208135072778797816827287215251362273969701224836131369547661822970774719522000000000000000000000000,
  8846759826363947723030914659730647695176266079220499798471576929611038000598536734169428632255052015617000000000000000000000000,
  6504457968978362856117360399981266771131761054952340095244879257568512571761306820353052649111329604941000000000000000000000000,
  4147033260562467635287535728551415313302819253684802462876366143183477669015739377682093310618713759201000000000000000000000000,
  1783280721696432947296079144971933179959347271927955669530806365585854695423980348669821580215034828274500000000000000000000000]

end Verif.Gauss
