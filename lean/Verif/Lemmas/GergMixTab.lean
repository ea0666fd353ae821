import Verif.Lemmas.GergMixTable

/-! # Tables of bounds for every mixture

Written by a program and checked in `Lemmas/GergMixChk`. The meaning of the tables is explained at `MixTab`. -/

namespace Aga8.GergEos.MixT

def uTab : List ℕ :=
  [89125, 89759, 90398, 91040, 91688, 92340, 92996, 93658, 94324, 94994, 95670, 96350, 97035, 97241, 97447, 97654,
    97861, 98069, 98277, 98485, 98694, 98903, 99113, 99179, 99245, 99311, 99378, 99444, 99497, 99550, 99603, 99656,
    99709, 99763]
def rTab : List ℕ :=
  [0, 50, 100, 150, 200, 250, 300, 325, 350, 375, 400, 420, 440, 455, 470, 485,
    500]
def pl0 : ℕ := 946810429921826351722817123775571969653651118768357895785456718220898320386850930668018200270631304885058529542980057228393265643682850007271067000479819942674775414646427978959055330908566911518278932630435151288308128825370589952656714385054704033735222977299503652457846175906375084369465107224678025250919575606729079942788525425373604439342299043879059721056661566553736754541968647821743754419629794871154634703524659400779268795319435148104498410584968614818820239060238656727521366019026310923764406604125641021415192559610546407311673325283717741906603462286950966226604715998723102172499624367838143925766484217463080435874870232289650748864642359491289139896434833925333818154801192144106089480592006132164918246383615033005530889684457281284071960566786701868893747144400046693297327573979862228732048586282895280486897529319612045189188176214315004870087014012517140703172770985105397158781913573178543430911131283296081657369698809344859022404499529955706697492867351000369655588144299932913500202346275122093652795873515785461525594741628772989337662007848563696229808509698161044428659612657616170652002498222740156128280056082357926473286109556212879105673195958288256466896918937770502665249994591040740016734022381047423559510413799937954205102486162300373538196018620763945836854951068648785993110027536642665044534228975650849487322012029622940944734933482757362989754986669922533408434173742422527152112337279043654747813436012049
def ph0 : ℕ := 1106596407878486036919188309519210317259062315385813134509648099204753111554460905693460658095963432375784438930157890087574560644095534000465239356117679660098041390037129825707254425362830725090136050929266612124280483594274879119321208833235749357520790407846574301131368657703388253794856984341411743836570168434884265112746726269143662084460305095008398738879851010457516835559257899013798689659818186114535545278458460890855198330900711652889279785924509161074524330612021935406560228307251396167694596629552003396332406243378196546886053054364465753436877552870781963647313813244694891212094366855977888260174967124938888976578850547141189878421051993460018940184743547319485663580778858639833002285280931913789128412617499857478886525674867193358212890269906776277098428127408330379291330906918808365705224690740188054243756266196541323687256141644558788783922461991052061551918962212150100582347559733025532906797170372532096459691122161392303297503095719704378028844333825063863971969495403206046823813354735507564492822402726296060136734030184824106771303747198400078064374717498219776951172779619218104435499042374794039060089617049298458116154867709483039532188671275128609585555161187922053991030545207323554297749826733902444942953911424232418970801203963161683330839506884953677453616731003661213873291009648881016862235116245803831780703235236737574682616989214601656607697985724309977186284695551676187986514600829332931407008788509043
def pl1 : ℕ := 810000120432906286778969368065328562435735196097087715584169647144587281047569355566879125959232134931342290268385374898749827769076578774175730064756371255739956785566797141064345207513260594644641814056373602352387892047698659999477707037315879859467611675344896848223403311402922158358233424861519317791761072059276751184439893908863859436505178733591237328573892603130703209784621405417208612935570579520576723700926865540312301120412892051210236668857126564334789548867443613557082636469386256860041072276225100348879486280466512171198840251052480813589295718644153454352143748930175869356932075564704331949444780192632514956907524175985701767239814121428283170150006227622362326313890504126286873686444544599531758898468149811851357430757027914090215028372034937438816209042153497220859180093518182040603175686482016314874726829640232086182064758144465863157192629399950619652713897300089404337883551422961840675918015740402823869236598979445280214834886986806323266028635094243821420433218157328323522779290264391146867854541889098181154972867799626227299308623462747445978988696947919816985234418723545271138543264340377351816804671974506841696535425308408974168220501833439720925349705240418707881295938956724744497413869362862846148560765319937485692353671577200567287105489191358267801812496198475271648030368809256055640858119641046101846558443525863522105877942086187289116010124790664265971254190908687595377341980496550168572395899669771
def ph1 : ℕ := 946810517819865556511317538353687470359441585867663913608215615837411298181160223696562759408401847693171477956341795947752919484946094913814883338961493439724508392624993440574377537118182017989711713651774122610412982624781845429337601369871414205743996280149792062022805783799414794109497281235418422901946222658884074392666710271963402626480594585076788345072391979608346624577941817256127629209427717398848120619423330476653009300861089783804538799515467166130232757825439751821697236441291272680935788881806076405399886511929630769693392578695421480853552135546438338358427209717331301968409831099779494333878349001859020881113432915652410353255742753361429815692696323897186512444360181808738104799927046280487057390193955523073574890109148358205875028714833160461359974964250914754371409982139854483858986331227754476318769264515784885496931584112137371527521167199692655639722202746287091172309141159110842459909144053814436933912757346725999646606283278833294707247042021278913545204334505251847252190786496863128340979790592052467766725184967430576698138234976346627714431677458764350667926250732820372145703714972329139655451428971152816572285033766756764322241805377063838347418896316603153373864821396192317291977054102120680002563266821032629122551697308023664601576369250596632626082747303698537358346091240710764046541901202885366758019391373112363501742369227330614051544487533120927971295332432694900974733953039418269838551616927250
def pl2 : ℕ := 693217730768954060822763593080519068842645553098236554036845055417276802907767458148187684664412034464170679051652937378709114722605264969846122334117760744900957042135692306040126027217236805212168093977392431300510976442178264543597152742746259687308382643401260467635522041057508229491604148044312327359317459504979858490835088132017219552650628291260248917536360236270287794619084511827891239560963173157756890695141992899651052791044779953103871442945191648175105497450515734149060916166693698485663511318126311860330057126098645685010923389046790844765312164789299289645592868635952165076287704782564575062137990680461458569287466931064638318386508143549586646413413903225172843770597331178971687197821365465648913304870603344065723674054502075556958660816819268825862287129666444706709471432625796309064683904127421425611136776515392806308166183770839767930485163237739326129114766167849374150625460966026468872393215476727207559508110245211851861590902580452790127425751330013246744072116375921019538784601319934106933625925620665302647023489212210133028508000343420053176512808323598866708614182098117475271937173577259530462235955581395673617599928270308135596086875552235879513631081393038728642105169789531899340978449198014753757707985533965581769570405971797554079966053872286883586165634640330200027530414306070853609516868999990044416314244600022653683261708803373485596541693356311629691970215167422889492442104941632183179360781203783
def ph2 : ℕ := 810000208330945491567474681024640303785209346324918102736122147344892240141030805533606122377507728015738532740871770348831986571248878430952587361460507156923151360681092023582692547490655669203622651559778170065729678814434203456434220442168177656379134095686047438188495031276339458523477593263925997257157538896898176115292253439208398758010651975421884387724484149648412635822098346369753213333960457646567541070382034311818705300457940103412026558965112739772323038140969948013394408553139931064277869926986952443870521545033383971524232174737125222004854429404476152086403290016975697758939971977483428361842293729618659855887578463607824813767740058662955533315501401848115687621841691556731583672007860479970156860320661459870683714184969447357801283594338350628653265041378488383281174337217195370954640055753000575110774217340453158821178590799078301194081138332234706123339211901369398317423504889773778130363403865618208315701850461900004453655902431178275315440095232019256680777945118232585630855924041690355573567878889289771994179757389677550649273810061520778416153148102729126672869360556385639656582370205654484518637080057993257448426243326409769920827710626814007262566970200824246068437366057229874093580268607333754771839254860610243128483954734728087585183293387584817382210951118825775482371277272970686299264161943858729879843943896281041623107170423277255806412008263751491741218440346849527174063395389862170947554220526860
def pl3 : ℕ := 593067583879410291285666728943131675721839850963532876377233827867068199488659317577250808171584242606145297013445228127044542962527631560265710621052783001833121969289898691543917189623967795580721689538263896780916255468015919252371804555817494248316843122110944237188765658675572240903761952907167356135522110240145066300301851809884139071133999764838706813048069255325533171085131611828651039924285274870639662075865026035905528408855970937371765118053038862271897056248357238162723139564588811966723015953846214300199410637773666017128533515504884537850560919725368915350129789240095800088721243846991683874964371408503581573641485436817253258501014614824671482354286481610825186392732867474021191625066851479232898004519804196470793684852515962411615804497016630438720328595226243293875932456232065949400196789122335584559578707410881047504341419855447730998384232843672054024776411197841270903932850581504555439395399477986718434995547516014958425036908288232042359813222861991744560058909274106550194224849068765940681950205043108216011230352019506829424475410559582060768540534759824761170438803635467768144722413253744946791447486989885715833525985727498799165494130673287270254504414858763941192538969175173688590489017896105431051052659201185644029564403760158249177575068155207069877911598574069949148806413127605782460466280272992846847318636838596232242244915773086894699061968983769190130881364808135042621680654098043316900042472353338
def ph3 : ℕ := 693217818666993265611274080788837733673676701712819648939018769179060258910182144328609646283421445111410805871870759723281768006577971913976136141272637036389782562199618707628272945166770087871084559722653075233953914183472769955797255994975237159940693262406516354603065289604600243375282708785296120082669402513211164590501476170943445672851510291901011921834252782987809596852958426942207490322883829288513115966326636370360463856823242473892401284880557291662084249432501301127894130093608218450458037486784870449776828575401248234544499997508921944113506786650660318802828147685854733091471892213771547203940072413243460033646675336062428004580709867001227378283012014551017724455284487114894558695142880081459219277950886968808981011788564255260638022458048011007059990567116401242897895786231615281591156749595807833612709361522104980166918558986662112430406995967648829522142058713868182895827793491156050427858795890912824948510113438083802096985548885090684015050178243547642290307946918684338962934101614052703832433544083031819719126297656152587021313818383853686874396499414978512692596589234842168838586550767791321042517106578178285636050536969974984336262401178418230208477663227242663221257364310239025111572699511980815857381687788857009375947154574850458671415701733769172892826153868371686640588182930759932726978834751699947507509232114990797656811422701319645633828398609298170879742279138715035112742134328406767016127203375432
def pl4 : ℕ := 507460255474337954895868466994033559546873084757582288921364636306979679730735126771401518954598431990030983132022300910668193203436327822363619575545419966741355137632079057884203748173621940611655890670196210650946754063656784880430759958088943959631996441254216533475288815966108066065668170685385265771330861606816550031775306162771267404382453045093135593074918455442345899050919581086982193618025435034895214644844603638883192455827986289528990822400164760622304026524263467527026043565389748399170745646296318668954966360848382484237042563045783349131063780973749782452694154512961537854499263294264314742154418505068897787403047214239182102811949647582599627128401796558902750858423037331604008427407510038202020085907331065405539858843834076737038012315931876935421759533715748883126942368520716898684597682350806487614548646298435006949397308684240393396987343428484253104762977669328898127602913591380346158000952460127934943139675787369335905801473195745781408185323021025736211183624509627946107257957900967265724910048012182353008989044403182596800670447363935985535181119019359751649893327402300533985892477387946736412677921668655392744439795989873981410570050271188757549401651713425101321291230014588677498161000688521341129060787963574235567385146221540009873441944741880250675169441673480417962202842452138586738022553518951606591699120425053537563109724036675590252146168255122197315020627262313534507520758013535133160574066738104
def ph4 : ℕ := 593067671777449496074182663003305693719924213249526881840334278324035132889407482413594961616756324712266390010324113536920973484057888779912160153419503953270196307924744041051149450727557468960860392813006729292655872004096418801335474434171981471155105273351360822624455710836192670190453177495984432062139919750965536354431543901485413405196037173817617793861376587225213247308679466123555333657955453080084127947834386653411153235508140199328765241766181154661426211445584415102117895511141888992016606838924730839039145945744194040679943628310567750384118483212790565674643152834832402672812101809550307982744493271500446608168707586562469924380815265018931766802176809334351433264377045462870023829623834144483339750095490510899963763687124285452517941611280846625165634309343871994530941612135117592185016095791639043339302378308442217172344948863050976690743558725112548559602626966003407892477715890602273187429022195780402080453829760959350746870135346076070635584867013884877607776795782525292512979697146492132728538919854469723422811003527324274223187263226724456612935106641207881439457011569112614621633485387275249705715385261604703055540494742549126424705989662666869916583590365018040960424040068974199891790524882229620185047307229471455042383747364547937364909097879959237980491332293366992395949195107764902473653477542938417498716054575986637478880017672737213597475619425089136093731126240132465121874743267204925367363402657339
def pl5 : ℕ := 434275381153999942891183922405099246722633538107056877339794081313395715026138196219296834297092909010984323260670463968480423070223939561225882651571653005606648844479817536838809938230852760444547211183538768793822958455729162744392005477804363310885747166034237303487605870774166651825966429926540993318752841140671633038266951808762750724355070314790607878378247846906060997181308745988625916155496269957277716581071321530195597903019860752730584475694757942330610603533685136939741410117712224028270294315739797012461741577811951055138345970334790086634818795677029246785929698205522867625253974381895710965079650083223910574746134425990654211795143649700199448913466972671216759370070822686524591498050023717182523744045999517032673219831617244416699106176842046650606981417839120738647198842615798024457389528026712516130666993953435106210938281348220542306586059949568899538917823052873395734617176547205612940649734284790714741660135397539394333755992583199676222368413741431982654734595812189886175697261414948170633097028775523026466125930395166639288805913170720372988579311675977438119126259360726828621682145125847580466164618540361102682105763995060890197937903185134292730058949585477472949706199990249232767938359872771845847964727298845103668807601165631691043487500274916174042578905657446303235597891159532995534226944210278076739173513337657307904604698594201618483431518681709104726430872131997284162850548811395312848342728741984
def ph5 : ℕ := 507460343372377159684389709222157589293074298849816963120877125744577928267503843307707758494377436179191603133942915686669502150728352306984227378604666663081609021408015691858242534220516087523892358164002359998762042217878803758864868708607117718848666207986775014936614404399114139438373058140821447241507155619279202375660982895924840965750159274520417429190713867746503812534102365021614379957630078459083168623628582256311733387705389171187427442220540686788686861630139958006734471801800283406841653151623513345754179817377468491593816706716962753293244672309903884835784653322635969570113617448085723489671623675550148406398623590157638080789041684533051955399963181142105529072628011796670844622209688432220326498510092323689315453650241377630063469466006821509624102193765716682998862701507183980072234038796717345363158608292670103041301227728667480564258577330216046610698142821203731900231746672016008793007565500541167846438102098497564651738829684774375888735387213643188004186431500707663121130056473234409174626279070109817334204304619944335372910876035177977496954922322977006383380313820983787319725879426786661659135751578696941714785297049432013004679749250359067802305497072159791572384313406181180369621149842305364013210229666807433147703790131101899518328539406839040679694464112227834462378572911613252482810423880168718884977034331463255204229305636025138390687002367754327620436642766846705835863233396962204163633639965625
def pl6 : ℕ := 371528223193152134894788984633776946803051747845235414972568233528057913357754258480870509957791975740938316814508147380064369402703960092973403919822918857880472147334297040450931787134250701192465424196791620647350052333705313904720971404490384404761128778627162542095503612571223382776020256063503524828138443880981485586385736048652183404673171008388677612596708224181033149787323773124168019949147733510740205331508097063303022494155068065125129631541843744841907875458813342708020431740934077363892895195754385172145553140126821585228492829738725374735709328279744521048805277559452451436244529064270356402725363305462511636943236422504402985906308550598376036517882466137764246160929274483344582268169446343373604890517147734009716003281873853203135042766823309599011371944828485150384427406564288624681244240780636376734761968078063357407904274090511223306945996485741078792859563065114688394969213336274463858937023449931277448814735228649877053528112051869388813422565273800564506324011402427291253329112755209531375378087559212036034863573983135972200549166455713703094557063332128223722960679361699296897208358766035723561763146497370223322083455551460515220809057283935120865210687544039851158302170284148263363682877711541814942825947971783801397565357078915059148279673097539655565887608369183492246526220778924221895817819675185288315266947553401835130237364987820345697201368752539889240380178776032107574126693630899954277690006160085
def ph6 : ℕ := 434275469052039147679710920707625084540401442284012452248881827204995747513604338365298565846241320654679690118517871404145929336165798270208806865214012540083595637069788675649798910607854223974701720105561772857709569966777303964291748805120134827518856159844543039410585208501795210340371305141665153774383607894304213199882756552804973057056201811342674374629567764316062012716687097408072573157261630363965272683194972687495878279876231525810053124007701385410095567845633903925229104275594279588112596041962193180073059066481085791478011759133326517815057952425115528656943296387567996410541397457928219315972284218688579584088975453968441196683615700646939420185651575481443230531789246168942535508972408039457514530355469492198976184072251546084722054818992693815016398876480618661724428697695490047845414883133310854963787168448138737377148918290421429188783298347038947179002103084081867784227447028337861043522203258180827047541481559638835167348809611116792879835879058983210943795333954379378744897683537081361701176876468331432689294808710907123578280123811829461140459294525047780608058562543291643314102761435235890279705849853825495242729254607732185489758218199881385094455434157211458990417705255801747169651770996234410064812585490760689070339402474692760855779800640003502552814583818243777622997583410202280124979572560536914478904591058348350056807213943219661511745249564919082273395451198454925905187436777499445349961124189281
def pl7 : ℕ := 317899959411565886879497572801668667647631615389641298099722645603372839709701499308431605541961632257774164323336886805581005621468800045653193921136175993783805975367735692801068210050055340543260095973662122078438602746760784614069272007896974482692175374550814806206586677942882151240714389066323213242527282395890804316076149364007977002635655849815253378249368751086997277195890371501532543078200402424360608443292966199965262483084246390088178353996844865444413277542584955732948898673677710889591821285919136394063720746625364815882208923323226700059622536213646258870261876275996227485690437232222737471162040949829304446466095684349651168798322044926449451832153478353601921071573710957578481451209445753297190652637216573006426329007160996110110886141940657463382763513784661236292158878804775311404162566894714885545505692674878546447477724171149340297066402183746287520835944144743975021071229038364653194316524098353834986091238560415760566636473644017427844330637887579235514878951329277104994426515566757670119224846781842750545134513547934634822515088033067102178861386181892842875129600832356776328255222164976688846881362974527590964712304328734035180780370898040503633145176942384096434540538164204470089712756900681103495579702908824992972102685910334102573198315611576522536197558213158623704521042663588281181695055195175160286443242612302896190720806064313910351571362323326797021830497386937541196528934910335388575001449725346
def ph7 : ℕ := 371528311091191339683321886724534440416077444301904234283997212738023846032778353308806071148910027656990220535201694584604842038240557191325019544125320121664199453778932358197367276884348769743768904567118821183487590032770104938816636001430690463739499514066742167028545921400723958954905464532431628122206758309433464152772228536012152624014593759114927770946818432234352144591983733331901956058115433578599599512800086457062888491417788365388199155025739718791387285736927026305201005035082953382486732494807827676185339377605194646455911839062542686705363140075851291974042281002581597862664915451054924189499411710746891067356926492063399549045494212902568655828689909318607781099103009006952481891105881182328996218372721211231541473826397229147474305840802665798066826792483895154530052380468899969595217262292116792072562739529320014260338954532814245843309364161052225597011798701734157919626718021394413427636804145419675872176148179705946484901243573795427160113559043815333951067593358817918687906414540768836687323806644620164129682274950466705269022615663693320193616232794182593392901238754497691549132348725294022716120609538529409985849837862743328617252510567901202606555161397502509709014143518486587205868002034061038713828363539022561981174290476774276173397522823097404453696134879992520725331463633731925783818939935090387728303555473947226336810334523960018186568425762164887842039047834664224762381531548043853988712479310550
def pl8 : ℕ := 272059110311367065299333697615736912613142707906777399846718562803358495213134391648862056219130833280928860105557089623443639381677340427635045200123851377941493193580253931008137797628397616441408694699336546507533997478244316818024665949154155324468655282241502795914935357310505720966752933612190098222142638205852686079412330016483687359470839332275669129787672230784917045152550257574652596469966762147675786940965073867395574691948755388970636384831261222876469203388864222347859808358521440358314095838512746277347740637975827760154659730885839001687191293323015854075429604194590374861476249204932325024900908348656453629920620704369745974498771348818692965938958769204978012787819809055330361000307278223819976257302644002383349513101694503832830331103468505832414940641715085483715465451002473735684003027796086071568220829679962552132728283525184482904368100820138510276360897966011913908886314846127398023305803052374802907863372189820393274852822029531772936575882521980993594791577723288294364274478928148767134411517214957448870885165867989778273600029462502935953340661161165160687857529812041299068674750746674388935923155511954701889223043846430500968581735171343396644151988992033695365087033063250226242913802679521516202358636066989283295975391606684212719631961389309055615914529682030349545889033692370754315018330726172177399535235685037804214373394491672671838986485139129603517155145421141890161408218786163856032765547317464
def ph8 : ℕ := 317900047309605091668036221436903463027470345207972912221267093046044886903368900390403261424531801217132048663169099395013352356249683349973806223208768226327680898173731157939872768483386937454427922161665544078939478527022125699613933890879045287450498522244539839586763588270572785915120414694698897867692388623093007075994222853627818989784960074459577016767159712946074362736348958719926035775522335100971193001297368097542595266334370150428683656537222688530519633119356363036669176053892886036490692750054877578644689071975935569734705721870174814279468366633650661390551826271855038035491408192968475730307248378621542047004018957804849726545922813095530921142956777857931642843313367376940642347834496043343787019215835498067169108218569608064689577206649606508998664087315052882297249100559277441297748956897943137676110027814664329284989782862633849328477501134676484370199616922820433028879274351130524620488787241180690334911410501888972681065328378169026620421184145924244670128607741503252585224717724504982615069576838573148995497331829293179799507937450939198732199202803208476345451415592976822329912782587889805416940150185869537358051671709575167190413409324855652358893271505747330636969252789341678195145638031234101749311455884641381671041131319836378405273999264823883988758777700974878977863626658568372383326784231117989166819428207140316065227143588110729600339154973911218410565579131041352951161886684881440374547099286947
def pl9 : ℕ := 232762006535847120144922517956499284262042017569570064570832630963103980404593036000983340093739873518281022017516055890571763892487323207996213337188616137589242928975638351092328353194184460538933679094819760118079866853531516271437980584789298250521363211400730971228074343025739381984815552365485609147241173377326950824305822890196842092667290883697594847214254116969596435714264078237138364316004063811322104922980870394542079810182691365523139162543958680584156151092763535410399797274394577252754404447228876826383275948921303956287174525317639194075795882128007883183014849289423758375551720604444334480466912819632205171711480738509123087948319425793769732296743450780857429328260491307818928727207756318698377713541985098794274188412990933377450627344791649222567187432937238863637862181141909328894285339155030857957240984111655956831740590592825407351081704701584821727723749443337526259137102811342285368850600733484451432715137385393574918093106577100743143024506085238533897598212101447815377599580352509048281816502957820711617180153200015476759399530902651159441046328652891751232456322785884439282850913815708190083582517733617174578111505167527978885138910857615034225237276444779679997401260789536806761088921125899353137362565535879740469530420234219957864922927869619078094717154086390594338344771736526987842796137736591798653931465545616398670245833575212506081511773116735820957073614676875650318088373950448342695887603606314
def ph9 : ℕ := 272059198209406270087878574056636578149884299261386248062640850624631932975492188377392853772195435029044262724703772316477574057209933633372053576475221014470438728240119554750667619669900725632894433295262384021620120324040272282295600702296999601794666830523990719202578564858821399719804354548933546317713566205737235386949700037125815499674678864360373288775323231550754628141934599789909784205389698390964360869945760461823576455093259263665390877061938124783917088359162366427703072476520105123756597684815585153151878153563529424739135826847664982779756455346855594307347400972343184826060322599260295062121679138735218713571805060081073192181822859471644507355237348971184849259913006962754455969179206954328922788300814726604500227747037811085523293403281940360645058305244562195226494939234861225359728213175135030255148690707302602056193884733472614813600278033589969858758486602301491809677999504945621418800093057957491469915318344686328844372397833030319218527109463656359432945928032142161673509283879666806012453199744195569541547232308436049767502748303329527303275999193956393256083119073675336079997329042670495789234023696973461477501030646771362131770586990563346110780336700282754204865018129959355732825174098804141400174611224605242626729093388391601627101064780447380965861713184736247205887729349402283404850045822397999484704833555623047523370273908395439391172783872770850852124400511484711268799588602765608381981690104025
def pl10 : ℕ := 199177923716481596957390870462643062644068504244830783553007442579874736082359225958858700845693219378935171367368977867645411794908721710392608643465043318950140114609801560975313296317051363834701632043782290265891878012246792871503877470090373731372121879073330046134247206331593896376559479575453838511525374403335435225931760479647319302979776514238483027610827044457579687696951194475138697408955737637697566202975255267846016501731490921301879336127999880964735841262834980195993379642173456706834742976590155481541634042718567612254110286457102275486916884303697451080433595957809666975638870691163746997489174377480579050783627999684203966483368254366272024826235382765257713711743127598434230568974677956963477793418100957992136063513273387490139486539201431922449734711165070463947673011024482307701770254862190745000871256708625860873722611227681915090100496797652256915756360425178416412223177749398222718846148308907189723768136073369904679006008343223746294712674283340366107895359546649481794857269184660763999040742435566986213537079270031190812790425401650814332500549622559236538059025494441368527741716201563606885125220048453414123307259022664047276132495869296942528898425779681093535218046426452563007661230972849423525030845142342544918739616470265145458966193003988157903419616601004040672954011134696467632369764776857524062328003682983841926121836434526078100159469521151066055383849641973173768506676695366896915914126755295
def ph10 : ℕ := 232762094433886324933473784211780427136509074832200901896775306447732882132756494812004119128532844789309225564856754499290196836826091611554553676042531405942381408724974019804200969533351685530094107472342301049968664836082640583701781558561735726819600107272798507752789128103850018686357887879787087237241399337384499155082025911474526111248480618307458000693130205007369361461515098637177878813750667933182398638779587738289817202538536613207809082822924410612425154759725691817229481538131954879512332031937548376662218994415066403108567425308834648606961895687961308024281803165459121259188643947497275949754431737524347511583072079426082398782986184598632292464929465683710101981161995964417787016676932332113673036838959094996845277810817410051902959263264886103249856310203617295157367258956348974527508089208099219116125956009383843524031292148816929314364455956782828950243778800643384725656740351109742487408189762960975928930773038794619723455948770323776449345262237976169047763276437843967904510402108092592107513956860978369446860637255627305454291212307005777110172841126388926871119747029477858703332246619095697170002044480023788568190300831622220299689169015388784096346302950607403637814261200293383260301290629102573747205742717628025466090416592093163666682383122326342900675923143509141388960586538228238847542150529782568232928335366333006990781939266333891746929075021847371641000061676187668412903068645118987359151772508971
def pl11 : ℕ := 170433155343574899786976216647299852012376144974298234879861129912363582963771018469687458228502329383666117068157627917845324953509004330996031260435060551906705687359769324031403302564418395167878553447899463957921703248951785128761456667412479003514885614151605167689744490842809154694487973844301162752731951837308671396612376959067868210699727136569840626606999560804732034519170724163097050059360560259396890369289320792307709422349145278215941350985409710264922136636868389343416093163565121818584225247066481190262785127609099634155900959133719837395021619251055911655981118196503218532825121232957262464101773662815904925545649981247705555171044811847739209033659647612978194960645467410452437304681002699256429272598147426004851459005136225607927450572215975296430978041668093204919692022517440535906287794448513884960995331820236923637095603191750152389004284683002488248333666603020775391978811123024096562320977012952292766407836909742061712252168202395203474629294678804095051426687504257786849943516668094636005003338131348179771085393592534411888526038386256475833268444542372235278743595327066773591629996823035874371303340121462855036546785149915997744119526556450531095975834520950247667622860244331866484902294352979897223754541042658779297788053834632546902692754837381487421477338455301810788814277436240974809105891892207493914925101945226188256835106431705194932467355755647748276886679899888780462935501349860658136883710319713
def ph11 : ℕ := 199178011614520801745948536062230189161015737781447637117679517190493966595469694352981931025346980807623175983981319098528313785362828046004314267786301215576809118871033266442686901209476906851354643813056678154886137358261367319270806136826102209866609157327329119038487321543097542984191715638793344118461261289696688266507127225165567841824081772788924357098461477197004948169428186399387818012653702116350261200150461996724647894907130874691805329607359524145467637833008907756865320461809991719467397972063717475211861044170975218421445000840195767664928265690176782039322462057195924038544501376462272754087477875812337275750054016915044348458599341667073192557571815683814995830742936382604405215962043858752381274722085443701945990518573576463377778081646006062270044548968314113907479412602372641730749854863571512987290102134293307901146780231529592208604339725812962820241122688743903461919687232214217858092336935657888408786381973485830232631315448547703612318074918763543676274236812783907215483724311502908510072201232198266192000375207974086862806857427982945945816461370610729277416842391337441777440091488789543772677641736294753043566273261162296371437799206614892000797294961856094822594294667466354691203040672775373193083513523012789143602370553444103838108080559487910234575521659867681885308862301839580494240464283551638870026980080586931374288035321008959149272332925141649998083103733827752946860274610459615160556008474080
def pl12 : ℕ := 162664199250420478900203967290370924073016878158987734125709635217397309387732580605026475154063051242629670775128843703161279731754051260435608352678525618795600557534332467020269838832566517671670752816693278243914616094910824720248829587882587668316778207412058693994407257231077423686630543749281249146977970241549878326498638891509618348282877481453927363529015877591648383987413254342387266008730933835554520181339786646522921479550489831716447922281927286741741407694085191168531570578452733443285678046441087350405853040574785334217467375925545725516702069444609384722450983421486555940252448635439831655037731658977133177772723271435398039562209710936390058465607918392569142126773341420189514202439613470977786897802083287295843314327820695432969410087814239871067980675942382536532376110474563858349377708260611271716310632983261842110843443609082774071874702764095138709182969278188320760947470494011407933142043412675091730618112839980360250702740149613274098396910932873852463998872247640530792140440281547018506538149874412785071458237227822992689333027145112266278351533337041150621463384502752181153925589275131937539657517806947688055145891931416491418647439584057666133297875220620409613358740770789562472028195650667930428682146058401740482227875061821504565453130712425107951082113011051392747872079332806464270609154585676900105521199222730818573650584943292293250930271189228047413197644220906704853327757902901243436705296333168
def ph12 : ℕ := 170433243241614104575455165070464901259242042941656501952169805689959012993194539744923734514797352168982778497208966062532383516893734005886877975829806219120498727787406594585779674039958701131627030195418351099652942110719263127737286140478634570647117460376686664274603518407087840919309566243916137084575091682662223878028105318877212714770832535830519444297209894725641079950782588025539546785650175904680198291047235935371633743565429715750943436411843558226115094593437547473489200333630802742171957437098758954032050391485418918637720650388305406011380868613918379760938211697660260429742319402531705880053540569079723081308274417170277900374077877478668629602822788826966277619740027201347593788362925554245833885352699243806567019329666755519386884463693418472681592526247870263472701374076223155821794046527981580266672237210161475557301606609351576080838380976780291204383568889870950287398113356415550556849472524261924915127015882793059113115239490482092177555689955876941930539590898368806534199815045581606522187838709588730821695843430510199835455054614842485900742329431333920419858126114563729064601935004856957865207245486824963384818875639338048630449197733226867275951318949070033175365021539020366236622090264249593826403850408257854139280887920494273238904749294151292589344260306011029559775688222743226754150445858368464295282533803339530254182947025428993549670566308431387970879031264305452262954661818211555409145801923682
def pl13 : ℕ := 155264678616043783343012737233725017399612961898415637342156905113267059516503160181399250907327289157729913181036954622017518621634419948121269490720683215373720951584925484887859928734820954651166167631778709643154894188149491238272439805385576510934353311364041192372974466159223695567098291935913208256513204658882629841022678132795648154930469722964999839132292901906451407486314501463230562531802669006366137086626184444619256299125556319527275466054433275478752354179412676434930986838603873223289095691246905328694691738750719846164295706384101201197188192858066206718011908266897438560369829702833348133926946499809864690725539839837797601604542612128103874117287587219726593997510951477710650068702584292031267175030055745526043981296200015987931941517914228781473545714704424662278442074629839727259377066215236550073310423864212811683767097771020303006739315533592585298788619464633194450770073266772731126059933027735544567946808891901052931574571091240020444106381830691783647314128164699557494520668032757734011154727136927639835706915955393810402805672592887511433936802076054243394796202840436501726095095614717357841424037325591968914139622234699160741038051941979705669178346841123889040310909465965891438924249464645814683265283687146403921331710922761881766220383501094166909058064404946940829859791867199118449491171771782901459244426769402413186391428975585872864403277406430884079064512364162411453289908735468567917742846045847
def ph13 : ℕ := 162664287148459683688601101311649347004669571294310302926498972937524133449811669938525187436767409756617514403291041430792025524933542498563314514058824687970599350377280526074556971247868034259430750685928844229595930990177401233841149058630448367236163596102935964829464517281250221544963194423726734069608230931438958684110048565961952879349708205983200075322875643412360164751162424309059501120251919529206558677410851815441841095453965764821950898860313520663643384619410191354635139762647952754248441442081976227220746185971966712732457953416598595109928110820270565873220676641662692770055207271608513751592849538770544966174808218767564162974891593530094138938458045392755405052870898228422242088868945560573389544754467798442660278163163358327524499708294217000312593072733784537845240554692714705206616200981602488525947739964060703992819973989583002823101543553916247628129087781353410669960391539487741233786553927009290099592885814186263399133933889884044948715576086340328948343789800051801011816957503623021125277935257707623747770779996722996090757562848198685761834874845497479642283835712648139584804134418802621549523393405750379860537191942806842287725577682341041099639148522469931456471264833164183981090969955547551819619229279761015473102986170251601038724358078862029384098908146673035927792046585273864333784705035929784659223826757075669939113904133479718413765397071547121102956324723825479387814412690624148271103208241521
def pl14 : ℕ := 148182909393392397580428447268588303713327537862190848795242617355707429946137057785565257065564686191160378808520372584263029244410452232981707627672642667513333858431235045584121728825316664039498227637368970187135423580132310072973880717045525701652494510829198838772637044398862704087163181660783295745441686650100244678900512683425556637933048687183807489759418108444774764472958248102684410646705360797228460596158278790863701024351943072656622552168443189899717093449246895566413204814138053249895326723135991144016345044851921436085750648218298132367142122557484176500229710898275171669148794500647180859234940679392344952469956676435246206936955547133371649207607785039110012314108523506315826615018914970673456769069178201780577269177016665735741423404815214118150634178015006230847282636058589537737124473963452740838584596327980814821842561829670896000132239597238117787737479154298176139244633461140568440862207065301598941789013179452275073129555045406644103485801175079880919413824251092059538521772425802676572194436807992662156866033275577371406786122956524225172160683617059115455460696866433381196311913362518122815693136496578195246065330656658196107729282614468792124478247537414623692351053576019374334912928001201833135507880801962111504985055799776346389666660683977688931081497573926052858568284392822573276740865874249773027724416313854157448237502537503161385485676118154821050306092509247868528665525463756128850746337095734
def ph14 : ℕ := 155264766514082988131410509759945362749800599109608778554325879579420817821435761522856630332163096230125384806625195232292268708719605977332521649132311119658664258616303582713755668646439084842709331366121290761258806940200638141231014198549913631155225595655031105562283038281368956899238250739104355147956503229290358599572061394301698463052742447355587367725360002473077653863234353720028236035052557715232271176230900482824270814899230207193893069011340883863150180811596538482050818312277684583504751499173708700051173774490652446027368101947759000478162948232473481048554869255942074258680790576166768230962766656313310657437744921545185256822081406235553755551138272265101274258379139113738458153962569089085945653115706638453686604596617951752885651079393819916815717395262821171330096338817986051908884166394089662810270318480185353937418081602064373624835404857415651588605751919329474958830657559118861934831147251004471049353689611920916392551588746585686803637300176939981301300167050396964170873820144808445432178211190680818997017129743912890475499460060938835218234893307089336746478730048430777079391687525738806196725561130591379782996740945992215137123962634193260653431972012426353428563515335921304570760206837573688198060031842448579272636314576062273704422803959211396309898518313815491636180310987460793848160588125619214101212819733802880202289589532903679418712324893626587467055893907045393293119804156073798714722225942168
def pl15 : ℕ := 141438229151091375043934941258315294418005573186168591251762882910357400959126278738662589245765030559528263859579495168272974839981999276168280068282799887499403192836957547772952260843912817436937072051499948499718773251615632987425849069394281520479369460215082172501104419862504113086830576278057156064465322845180413394346719817942138752439556461951586812277023979142005011698179991156300316827639238734900009811722855220526745581258766399472679319365774391766498282416918903056901203241302918546436993382774127506641304878255030988495411190611450037585703816954802298041575282001278603448379644081476636273945048778649128097171415551390098795453172732022372151169357044383441829945648715722895484836973651635595980799531240018721243332243647636387222552341996241902237922965434201611398469666758741246447323923150846730485399512405827661413646260813604160552279755558606829906067690855731555608962044964228721875382322212957614506851875574045070608571441041075580777693979751492991827938689942306361487763587148194483091323697782358854130606147926320646949580177645499745084414703052488001692609740993294357947941557564941019925819066595600438864237118198990898874758516949713984676217561245698330168090969574046744700272910574724818530125014875387815235332153647019373207287072479146532726378514793356052628046931673618814098532129944173495242233926152873622788255571632345129168237821700711293980810043225657397987197470703411302955968067025992
def ph15 : ℕ := 148182997291431602368826863064712824634427259677356747461080006298824855867781786477955682180347703310451968594604971056210893297240966158789167976899337088997068325210462834669070488649098522556886675309768069506105686570490053591384469528671261964970041566304561618859989911596457065865630714230142990959982655775239079556501490743925673015289398430057639615270421738887802368013660481406905866055230431918975694991747480682798954529477815483286687175608071470660270082405642019448584723335755147260714199154836661586864096595293147205914098385037014625559299162364404306336269840259838351910536124556428311136825835124246464807101785186359840475131126189373853230108623261194216577894684324336631421814513413942535181930715690766499315084933986206194765643332877316650149133367355287145498816163252403116471515897617766139495994718433366399882576909952244752068862105035764433330310226362747764705658606158026766219103759610556894232797638568301920007859202296040956268817652854677347314910562237032379098711964199256592974841232562583179874223490296218298343744146129228875590805355024278298143195387671887831205347159087774446026683288457226431495386269743255577340257141008070229581046627978330577470931577424138524886751586679112934543596974228748045181920289320245111444355510963508362094151120585962077782696428784806342288026732673998783604637318394287304382504751391444219467180448858288148490903033172805506887556115123556889963401224613943
def pl16 : ℕ := 134983436642087744403046906800267607898128717587394306506041921026346867470462008436583463947478664724425854563236871588608601253610792030010598349227386358148286381740443877575377284926216162893317538418943896882193980640749283579924971324495003168006947834391302698038008113238639743292073196539396515163024044888081358298208405467596636300725692924883722424952731744720194869715438499974112201512970882125375262865979225303169009605496655658499402636533389286913859696271529063830434487272124193489541897166841257003885388500419589903814118931313642413083798326399941775367005243970135402713853063583545206044871424001355790181298245703802972947294052739452632927312090202152995487609328253299941253272599345829819668276275356650413466996724913756629035443127319098677328690676745905620313111020076968428115399281681771378740598155312409972385337621500684666033024563538088081975509903064698873565720646409715272168660233711347510750626290949435713316630313439460440627529330167269346351694416945784665186373465678772969116143736037667339816243650607046627754154400180385060963420477879190517019206437387900715709235075536363408288951742829133748285362504811101382827042152506827969780054655742774133189015605210110016743539627075748293175912644167689024179083348699669572305111247519851515792165802483839918590478384610533275705017197073812548088686839760663065745508861193720635808637775875598082640416411964403527700318242375048586605809174137085
def ph16 : ℕ := 141438317049130579832334005089306244062394522974809767087134748066193744946423378250331608776277267717929355016784759510079473189280784130187667752146973678563976735491928018245640544606861775029006743511455000599356170965891831158589521981320161775795662083460053526855601796950920465972771530848974456189689463468639838657374543644176680027671002672755816334567709534460004620344674633414698401583517528668944721123994130779059949237588745892516782682846285128094838293975044232692092941274560136360705152277922031821949105223054310079067835645279045680920505895851924674152275508834863705171616918601691296955044330093606209254490747143918752170056052674172692314681114843679592144818898601858296743561247963575226868979538796580753367598917722590265593616462517848219661859236252097822786330065465474153558411584064947910263491876691843606853530533574698067508623984168764522968452140085036906857896642450703371984864340712699819947800612962814071720079190988030827790269973737008014167896166846345280468819698525754543841871464832815354558987784943567380214384450834231174017995797882521896807631855018509504701034704908665165523868171957196136973495617951374193641599831256748815513172751031460464847550925599251517144989408353012155288683103221697645358145860671456023220517759890587372925931282619174176836491686841021904918816983118788235344717711030910755105467873051337791212746644405206140045220850206926970553980570126780368513629524606025
def pl17 : ℕ := 128836023576183258534424746308622567574434493102495060105379231268237495026165306203087373905178345722232962699618782432227736703052859647110444058875911688595363136814555717167965256479798843562653357318670193926098399463934790864547566094133187978795706969072484462217998689665093475514260134001231954041826422187556843932111117053085165894299703543947607844721445836582650213670705117532117057243922611002598912572704391423371753214317468366148330031327153112293770401088834228722142872300757947601496636300266032850714602173295422058882005393375870778893670669245773139956364749709682353782172074994933172632929537638745441293092577371830174357118890986518572459575384967986826056564926991580155600777959431388153432936470192107504529541409306715098828620238799189753253686114693543691566587727102986937235032867784334175939972016829030300731722012323188137350910125971682618815904545652749068582670076165994911522083100173852862081236083325352313397063184391703124283182530970264923760631959839959683580622482831019076179585453113054397978255403576352778225824027557059150001955268063962082397801118356305639378067758572358952794164849355713873664080204689966423875816556809321930762952581738795611309637903586027994841479927503351996978780821657949814585125448785424656682911306251180773901772431480643828857304421847702362520144483675671116389860361273253531899693251993582930084341342451129913515178142891304336163134215622872983357091324269722
def ph17 : ℕ := 134983524540126949191446618666124986265806913431149252888258251516474510910294566212436588958853983417375484105507592482063259437345305658665137239852568197342381264151062450403853426957003570914933323396028666237150889655125784846462276662900264353192812632807327428172944122859859637943152574747169682269949933407826703288345652476508825489646914474174647098483870741634912325518007462952126808058346488426465685994283404347520999884059092608597937111727288115648134840557662201342585807847452556272190294845234048520209942239651006240831639198285774764337246634901951694204055317761068797570478297998943760734227932920868608806812868660654925371557731050594069120755570089791557794534928153132754973884759745731258562930768775651260284357942270958135604993635170680415404291155210126016350378219846359849352663499707018487443786773988267274867502998993336212385394590074997823665961511825567482888538145378581449719058436058608290987518832339276790031848810208137671632842204745588052715015121786219084179057231847060662838703577411949364647297902205496892472088683241471800117759366392587297731943897630663276334618895370742590396780458609177448686065598510916023360926150371878409752260434581314100960466500312859680187486248472812407752934509601407950602738338527354102882457299912085664348926405005660498234763338231481596003984002136915239625533064930475668321492484440622055471186888015495649112837804114728676559107580794119317015080411941118
def pl18 : ℕ := 122980695694556284269531201951556645244170452848659055942967739528654519332871866672496752761700233806797676475267719670240090397474578729777349196777107593281912698222893974355448972020449718636917802778364185503300561016032197989582867300828048382503617438974790416247088562357134690304519602418639014707544719039048099757588620712193923927815341146901056352479635254344211442729905659335190315012181086289475318432336207707102127894979063355950193194580193121547812031398281839656824086028990079181253380787593696559780059510808056460696310081683833527613520421008004374718817653190238130948026069699222529822411067051807461885873415134223405026604529913956380694648647500561665284698822332609212145762248827911633507877023100159094166643508606738789777805978249587718769348864900487822776040007107608659870532312972137114713206962507195521407439600554488256594743085013509735996325813630755281613377831213279619055321898818362947616207666956806637301198588192052729547061093788636833613262764287744269535547053253919045470138889312683795360935797075891058408049674154178784142998915838780156834494889032730707465598409297628204219291870386352654570925776312294656563845890776174258235239235078814385931191713084102822385855550815035327111187983635412248668835093006639532009227996256015679124204925326445625373151072811362856536368882820151774581318580056112215058241521988487991371347834277434788542858653736451360914808564435547391507007675308484
def ph18 : ℕ := 128836111474222463322824939435667514332202617603112644682909159165569791080295252274034030701127651712870825095857195214295705715814862159732412856349941448914167806960445340111076665803419018703400149077484101053700625385163859553470592504468557221959007665535705176690736859329363307201503305842000220363573334213694067558769945178269271089848736184155696288099301970674265487123148320286692294222358766449573555193852983035382507817936435904317349918948456871802766370557784628047684990983119338428748502596514986470382987637559078296202103323805705297988463754744949356932358548952891708382521561852774038255179160320515045926318831023605776772582341935593251935910393346846979479301567774764642115854823167771987216541873152052602393680006397468997153507786556020702765323348847054806178142428740376674127693109833676605570311372673192935401690302855685671004640777171742818114277312950642683554944812204837369699307985939455256616250431671254989883869011122981101310744992178105569719638241472294984446875651294683415499431772574673170040352864836069514131017683489149128456599736363766719461301980126742960266119813114081644511709833248062951066544843254733033243232401031514230830348600155946637884294189021224208009399670430385611235170830747562880478379083522693948442600805335491506484865390827770668979527161634629785371388788688939466075066793656696210005506699622520927774504356274595886274500117571450267402295346731587819747263675012251
def pl19 : ℕ := 117376844103094209402250566612133958431349874394269774726694334994164174154205849771059337259300858117285293328446635067347655386747996911739643356303826043566535724295702822133317614848143213046778657643751931003541615989292793139106050777780639643214097005893771395689353971788104673409979099408621759307295896841472845137508697886326869986874298867947301791014634242449893536457974757405394709918023846348897392039690385359981648685932491749036201608114657526880909994620215676314033731422179637493749828763376507178596892676920468298044511533309985594220518093180164215965818993094286070326819964850763793043150589589548701841696442771319776303795037804299191739966958242016612903810161342734216293426316963260741371697332395648091636693408594942182082476022863677362938842628388225769568212545062650891221708589428076178781518577938532639807594257338168218958595574521474497795700930896403404804328439029514463551025379820762696725903989724271920142816015461597039436706445316259736810430945212669065514877792688317011638948106369015039503918847600219994300704591282630716840399375382621386624806987624834137615546345501762258441055997627690671582954826221533398431595751659663080310366118556697527390925545591963793868768064363999392023187221974846524415035197130818385312095692246506914437739460053890719621405940647514513586007125587852684949329740931238707412915421376264644722328980681533474982642270897420293088386318676660894087227977093353
def ph19 : ℕ := 122980783592595489057932057408354780182359233364786506165937758660648926926688279511018275018109655028328915802037632182795645128328461275109774352926482450775507422687875290320333165547769447602466653424672823323009762063194502114875067385577198028970491496900813243820881832921065774549360607147366021631607578832802465254549408832759010442461241838416651044458136676407277709187795574474290185077752513493923222778641968286217018550864818422474819041337763486530696322946628687143057643985326879879737274821223988980635882692503106325025913760992105736872779826997502213426997050548880173532446276531073193006365067081817613076370605978416141010698891212047518302794042333753502956102616778152809214274323840553209918374089798644349765342839599849377138673606754351416188316181226666840530843623868246078182668441667684781729757587956647419127252332382009740020908723734265393022694771038268315542914014853723476804956377773916603964798170247927052843548791759473095062230481918055672807358414057065636842377118680431381497886249166116370715094885055819987219339118770326507370722944740681162453568872649795755011255277290630684302690054617976071285885113150329280020581230206164883897232520339776052514856711372463935874922936276315872592659786582330011543185365090092468299825363976786382671421508758888221555521480257952677980294661556570615495792571247422365800423608559832791320002845243394289849698671288294987733801128444650234173579379612101
def pl20 : ℕ := 112039411468461847947820399753963681256224740926566218780814531701841086150220199365160436253086552879834143755801554596662420712007731119633250253334746083829574562244025918964469630390286249437806622531199467609136162233551507962939041210472538443436043611702761622836481498026429583908174592480965240282931092378152282174704447364432945502159911778294803508063030861966935141967416229022733721436699625003300028951833585109401900613519267135492765400628960216881284931455151644552873614636801304927056903339038796083988872012595744314984335185834987039403953467955566864709300466641617465902751379717128904363645349963276023163364059130400423685605880045750281711704452713292447970880711248080015129063637441521357436110305869188002039661572046784897261758465488448818770169484867922260441827175307804997316826791073021220507991022987000795159946571611786970519063001467691691354914407230762012192887775990507363376153491621064347984340915151220327814151832843021035438866846573356651215136272898168561343715737134012909312354996195602966943635774719716703307014655302845470654188985688892604436016022420977738994290070812746176172488046133090870554155042422890844781351799053500239966313131680855008943880958159836769186406940010588256500323135260326823701629607772095958728616462649204555089614032918248081570440937096422407481526152616296913932732839867707071912705479206674321667997149188552338704567611042703677038450261645766169880502616963249
def ph20 : ℕ := 117376932001133414190652084398685281549959331332327675978068575940880952281476787921668838012543766178749928858872057390748402592411780617277763006433034587452645088251989975325205748324360248982556769129127423836055733631708404172738864432755556348583734755942784183994773477228805267329659516544296045752697013927157260215654458177259652468388557580642968987212683194986870182735148278867887596759605755522350654626972383410827517703501570225422697628894613709006717366424500294806630159674951098060190914909443268972184251849275481658823918771319275762257473507975853324296599904990606377580537340815325618258453376928090446060636215027199279288836550673188391742757307506288922276584649755581854588043005621501687561934420414124706938548079337431238648781752739530406396779872286976872013121430309047282445114640064096759889507992614181518243782522974308334138898477915802895553838185910275133446928768743791709482933807523016345342113618709930370439087441422580688274446747366807736157651326722938858714320168825878937114813752262790385600735025074340172178054508313206799893603694189927698919973993422608503611008753570215824072016782699611205288954373219946807647493413639415415415080491192978922166568047379940528161810596408720585726476195503969620640720330197448158628878118878992763942576024017702992301161155080139823011510837995873989428204469433184131384485905191123261666284268569986920935552639229710413574764025942539766235835527713002
def pl21 : ℕ := 106931392716153984021446770306604535609973116660075139489673950919345664138636314975784887530316871736106852322978073093950480388205752174961975430086242410472706241885649510308988897327800842082842640123900863537564761311608670898561357229712199403679406412061500976259273643664755550216420807008038729985150443776295269854293092229119002216620985268971244940827678653321577896947247038017153755704020357238279952888416309636279136444225105913019186945074297290916663725278279013594929147085260299111299426506440938445948796248670807983839053931029528413589553892305092146203829078021917742217482198612933770008711259359910762573013716880501427627803242916341092489694033467364766680787125495361098402648478494475537562056992709427800295614394075092153022767652341537176715847159261554024222383961103273804684016880141792066393566455511547692104351558140119072144053463705960707603747519806416895408098414785661390566144035142642786949045173128656330676853432170217701821364610995557779078375463645462842645259767841354206136776798886671922050771292277668813496095210173292586710272410858505633147891998348254806089712033799801316108204756293073340381870895608192814180143040379821867046425779245330633236745575060109575120562689479962916518213538430758056946120402409706865916338923901339298818213364029922078602355108975364774880416575079765780858419057605659670173584802910396810596372471820698232634951882778104136519403443939353128092761161321146
def ph21 : ℕ := 112039499366501052736222594165154952012386267973476022119609630154235903649901894901764103057921656062096754300144110274666120870006839707531534518594503214408491538568233813007877834624732189920263463389366678320288407932497569191029456696265155984027934033147889438572072035923609498584253040769225142925943653522172628205595967343495080266926577866118355598920232426543778379044927830809651993515383863447439867446608636809903255605466534507762546679514724194999103912613956243770786704166946414367996931333541498024472979841006943904579266123408454168741111828389874612544480056489715142725720060476344805851151927483545826982897441728060539984835228411846426148641353319899234288040036209187507311750495094246233679864772456787272853537236446368209379100640164033211711195915464249099011282263779419609777188008560955636813238323118269365688184760433360469815972880318823150254896423974698990507373640648528995118089547045069700931726906606396916626403799534530725601211688417732038387663453134168563892122477996535087557712875945370866634884572056536850575540716008145492835516152037768773321024263574496381686879943091734432724139392020833050278360048861586752640468122434443083656830495137581068231606137216767203594787918316921465234365074470377589395091386899843512836753745361172701154655873707339981384353721529457761193210758819387754572334576307568586404353980912366572422799430854154768468907853302848786841463212874297903958913099217074
def pl22 : ℕ := 105376827994778097706848215703485597929316101912099942880357420848093445567119785460694296500886800125741563017951538733176584854756469981096023725020347270276880060797922121448663164603067177283586540109489402307776544563689789486178730481266131302176076558273576153954010601872054783032450641041593433087600343881937028093052874817502934301911805852926241379391760480957480988047700403558642344301970333611123136652459979164517314240363519136685305718403946384084352042430848199469189482637591862469656424689528834631902724588359418251526812258536819472163803958429169587343555247085912143890659332930305154785778215373974785916489576170135754360349490688538307790698804442221188305220880164296923953808681594147730580166774449313330728587953046101540138384742118827222530843909803795716234206260853879600561051474676565652229797382456541586602385482873911141048097302857328976763883778531419685439753794694743442270838489170134626374212106898634248617640456883646126816137947100875872286063469672270382906239608974968395270625183915570487667570225034432060986186309948864435785111090291708889458901986530519742907013647338223305276605988389908150183243651082282991762714027559605071438088595819908703922762660461001443693735634013107938263247603060689562746072655490729320769089035005893484758543084240116589346594369052316552926830916660075054610272362044712894014789690483573538445899583854750418448765030936500536385876319072560474876166379223076
def ph22 : ℕ := 106931480614193188809822809839988252968101438884991423402369957750195999285689706944397616636752030157906532421754114052901986621365717008340606194105437403305003449598740107887876811360994143726455444608770570305890807394759102772443769649989697101284196365278106696175853074851720473856482810425154452968349000149102291047405572609800616380694233611208132761204359731099064675649480268706603693713580619790776152537390320883148584903922055069314769186113086780664309193871388773165678155749623007981266671780177039100757184374909855159733496578056727304431102078438976308346849934012175908021612451796150189407778106820154982752090831317890641283000495914646149436068857721271070725400283217489384839166840073180145774916358833867402266161280693357005971793206535782655455338759370914091880980980528025373048338158610550846449605609090862902581192629828168336478280023316285715994753592582668755744722133699321022499155949212239506734051351979442489608403406296410342709218511394382554300768723315476926799310008549837892552259432853267671283151147053377629429048895042603050229601732391897279704393213045183249136903620752991609136471256643480293083268732864757973875404915106527502700785120324423714628232609300158421625787962170012021380478447383987080502406034153976680712007460038027559659693754969585131955212893915189867863571583349253420683060048819926681438070568167375357539080738903923850656189941342357388666105211222282605743810104642235
def pl23 : ℕ := 103845819947909094663303182533826754721107174912971419813228375533996350543195452185558682690422827795269695424591410587564254696435472982808836789195728139060299007853457266076453718667841607894505911009154520654261735865179798760534081597059668229892093871276016021700259591061657407850826548087067448917158536936036865208186903317264934777055965006858469059238661224766364858630371583818537807753369867234092128607277676513071941963527058835393698550056228574645327274802471599584594096874458110730121718294405414134550756748716220861121595187541095384726067905978308143949508100388599521826870645152280596726960505527156431523474859533558747117753538991440509497236656546527581725505261153381626958237753677349430678137051478743636014016256524012663578206032570733477179646393227944848465650970411051296608936600395547266381371155634142140211555941608897685174100274218319140803057541292122601751856088166176259498952785627203284445849670197460378801660778794815198955988772636983825355886808123749312291094911486583062493227039544144239156515511997436245014044352718895329241443871822494298731649984619517186429999989828107738040502490823385200361086127278565448117805110724642736205580315702706678951439349793185657385941749195838735197025223296028757721225635144226590291724755818952123628301417545742618564436276592447751132908556566853279406616982015594518556156312140936538462632050040409777418858540854661454394263327006741655418519548111231
def ph23 : ℕ := 105376915892817302495197690572307990784978345109704728675927151069024461396772430204827467093585316734125817156272600316984905311113763107881645429066740302138827472303951393290324791271400060700291043133102253108033325522701137361623224522974948892327237609535620768604412897320539937802034422280801895162909306845789375534851185205729599855869084870611055987369732017574632891281969781737919078938917544497089382373989924608793164619474114530358305307090701305743697723330619061587423472081041671196876048736316679431349896183934448497435095058171945712690657578854619302719767695855002145642360259635859545573870544295189467054506199271562030211337762694387291958505463469414361275015158986635922935868654714957611491085729583561575004904120713137340111695681474086970329094899518056892403526800937623022108166211754485378919622693854484699855940594546205428977197059633714057938805515517398444896531138834422151704660317251949780933351566750270357954130741528856415398681870748251731183161489454572925823757886397973891919607790569633278204327269112608187908045743295219535922572399495877961630724658140438383271857886338569707978495118829133240427475834899605018760328468768418588194133411025546812239561045352826686831308586886682832584317171109869055712271467854452436498617718516178867365462522955811216560393691156963351057353173401722970741334249925507127657839435091484221177617135461769844153406009203853277841871786056460471396809649240101
def pl24 : ℕ := 102338104881429360525863505761929406585425497916493590753858054433819088376741904038368737107768850488478096685991289201638720085402381635865547611912703383839998389611346003875983936327740035271811835528380148144722904304083460772806523459987379818786205767258436397115953443029959145279765592795621543228565099163294387243474342574654228268507882019666832324878129606485363744522725412467818562901715740178545425125454326372206280847653318601971738188750178053485007738571182172253524780214967209229023209580695930564286169844059754948784457778273073576028935405320760559426034089860558490455345934673552810945171327147535945592079070134122128614120349971945657066296499661417994910408777567243625985167595664930230912116717892667515312199628639730095558143381820167654309516391983507150330563144093892000132922011352364744425270106328747428207361981483779807489612573657056922181562978413195130990887516668968657575637473999579342178494514573028560090087728738402069752699648746145972953795203582877223645674989353854705335556824572602895701102515825663724204698759542727827016336253134207096271562632335114248498146351558711232936107315285764094677032083314657298308428149844632164593257115516333275929264382464088382308213464096835152491407141938380925731953201011127985922097626416859942645756431774841996364530035935143324568626622782167661734526284398713014167063168063755509475340832147149847544495868886703054328008390534167537755704893120177
def ph24 : ℕ := 103845907845948299451652705052271679100540708702348183752748237778892738171775816371455963380332977480137580813909498946188695582047853564238286658971124746276090374797615607580982201103896002259322258131778767779261571268191677393540454707481739526837791683902647921959926627613844747993746492761914336478850259717372665508602699760381297056367244009030845344344376824157687946558379884377683514397113346601694537862675397932058509259293372794954722423425334019356422443052690054287956663647941954009640013499711692961660924077246388972618015497765851309368511916998682249936298685346918936919793181065167965818482625452745244501504394175799807075570665542343580487271624324649994859847772765105122993063670789543171435129043146586169975646090772537225035418163554850004706895873805839278752354802822713251718949628691324275225331503089122365353646743540452459962633002050957863010160615679686845932737785966414261743385475064433943094094960806765880152229390829262173972649888996081886281331404571123228304812981319649404981384837323648028634889949496596783530376796835789230625106564120318890678099889633389957187354227736985544813195631441814696660573203011237843565691214916492456448219278357385368154253662347275168610669601245173768978490170265177675445512857998198207182937413216358959769270552775078001589544815885824998031628311685683071175314692651576010211867619730600378217349412260945032236845268592438575533115650259277362469570423859584
def pl25 : ℕ := 100830829305145650330048481731314083255226477888646227313061143311159648542553470522159886555854611413962441397952266884468455646167347530005178840525236232656098636732995488630117432500798081225769830517390051287899001441583351976699790290282338658734092191418089256363871807518438881056438261319639762029221456845915632293838311932818021574480629298478944642226079048635116344587161895652046695446682067851650075514153239280598111985793048765715290971842116728710191754681556502252069890524013967280934712157945311300569225898523068351764155635221165127761941855270249751924697006314612753800321257597432070647877874980807233459264655333095429020177040891871069986673224553741623620411890089805600434152271662733250515147621851633129485742537214464018283016856574219119822364212857903283248298984339749121072593738880683681819108053343791528175480912621118666607120686957009907344159991596512581010915387349360559174774195697941396937115948097403812100427416528384367573888635039448651343969732858733151678148193659648925993100119429468623777636752571136711948223611033372254353119416242619905083631761182167070164389901326722547620820745733130125254667637734656925515652137004705427726373375824533796645243943645143841522999802328601038211512729039546234588323439215384636966008389311399332821206235407378417994508311985679464720935940316940890340228093542280168413241643556707388726882928834626382125534280071377322672387499615685888887117636146586
def ph25 : ℕ := 102338192779468565314213266528486988583715282925306483589141412456427622669165280254550030200947314449121369557941194198548491254607957207252523816123429839155544335772349040608680492319416699351569916701824197398217471568280525951729083467259535709576248726349883832069214577747797359390767781450771465893162800610064387323441173394126541519296895938796758950936267664831674494356989092883960464804220173574766867743442691053496473052940992260971135507329021368706693819402903977980366160578616780207563542630978321051783398040099136337289792701152655031356893912858852586355619068886394988945209624971786873549861114682762991313544998729648688202617659090160904936726905982735775141305956647749463754391045499883349732462835421652596879461775602094747552198698759489923419914985219709575019390687296099059828467544400799608873820939215066660009817290744286815366804569155395828637492635426220912823821904782963533155955312057783940753432083975878213070605482695614295308379535125968520531407269459782461959583559990436935681873803390748109288485852250140722286759986411427863321110226751439195814708450446816871557444597600634221102606204999682362761757743858349464419731474356005109913680587798851183942262973389447738738538145891841897660869613411280111433696683338922440979082500888933153327121056074549770550058285093231555234830540424739077591718194216406210800497006993513400226591489390345855769004647921560052117807315153869046849000904597170
def pl26 : ℕ := 99368821219052406121570450520488333272490239212881469263671359583273638663236817337387468657273695204893190167394400598578094924944240931128822000709210493919307332444506957027200423987371610860087646793512613476306856892402670703203529754002358729192209724559777913260995496854356634263637930641244027607474971732869619763960488469241710462192803159815112467682580403802460276291275461289054142400976717469471004506767882513461978710102870585002404091015296079985237126720137914509714160378635791108295386011182164576592951212133839299129386173149849915342997057182255523459763049931540228530627346393403389777206953754684212851629447987701510276573466851432288823789753000808208059912770031277749914572065364295911791036814127601117508643669876592306983313030351613341083781582298138492956861393847384515551859349883691740497518613355440246401679991154874992227274352695801524904826870081623780009961939429118606497182943129719768643285892434284302911419598307249404888262006251613001717337174909895512390722865489226875572897907898745380047065179211338182336536750670516172364925100463610521167516929491370701219598146513564114513006203319424716612318095888818734717868185651357933658635828669739076023091976964158365208146369163564769116724552002440269041437774248197941237113160036387269465609941412183434358115524906678640846655511118312978416665607738806433232131460635333475680344033015593531659339101259062599047971133807250373055006918251062
def ph26 : ℕ := 100830917203184855118398290147494196777287554780776704962102489723560153304396216137411336948281623379171219503779481022548278841323248224988646782529489378635283586097120512317896057587783510567745449489838860975109419297047093337704725736381497744028863244413389212512118143965400595562634012933370070584652126630208507029644997713850405921745845481644045382128622929049731614582847458077615365959170712068809553360040827433195530721739089994813549612486018048084988397377308491303253016535742309422892669819681188521698199467265105170187280938341676118309822322173350303584890932583192936560303822595324556038579103278929068334152602276979191403838836820843052734770828339980489651085790721578707637030505081732287044211001675646008267446263981171287006240506637361843082550337896638194011977909458912033969147936485812429658415374227156068902888676875015533536040274774212747641636106109938451732226688401469287631247206778124541487014044950738256571646198851860890820885682598935535942852655293449425397785957564131599678671101453337107438727112970459773009033232567454234885641323147458431669281988727880973981923182275698038814217393628164714468049976787362105021878597856485163318704985401240893684945709411429932838423929078506497371244422542184032116527308819685743674269624131139549701473918363600376145593826596802676806433461947274501878660918668598483359786345692200833042980394577345438294282844204935904435860227155890943371640992667035
def pl27 : ℕ := 98210852450568524729010536950454829316967183261572013640282486782316007876070380702582463890724354404780461581702305025725321050931311136561826898732177711399843901362439437653815061072841097460734682323839451644028185578851925526287293746152193439131538645915458482225443096569410284805941753490896744833864971142106804624325729769489834397867591807600954990543959580959668296116900090171465447527799249971408520399859344342121385650227421474728602049374923968682272394465243365994566736233795808815266336469204772257455473901086256672455996792311977173385154980612241350175295861158802057340692659760116656210945465790508550270904735396885755790868971392202968988938895407437574604200362461210998807086985005158318924268495294363759311596987915916341218934176656413130931004637880769175475213031308531859375804517593640382572335651648210917339486424273877805822786171319850736427391919604131681600768366783861820314675053395724549647302261749921249895719951941224035314826865586663738904832310380698969975208569607660418222419806099921226321609733952594248944777740942965310964199881799524035808185774703726210377740235880494965184238975131685161029306770551955202592480315758593341310908313944384774102504292946707120223076186895206298643649007897036277507002346069780251984241327052870037374254702162062937406351596708293019863508161272032749329564776199556619125060409972240394767627826825269179763390522940757386845832930041487494598528660056898
def ph27 : ℕ := 99368909117091610909917681092089491358527259152731675514200129131967875795677962676476955294355283206168621744048212824096076054647155773937250124782028379774075052094636110944236660814223253308294648628052780082283636326150771993952194432974894900320488701683035977623999564504122869550227893133504406976056094508596163338359661322021913057708073966245063132246380668916378837351753746245300697106817072390272866149780575113568659207910024497702174194206697351188753709795289037008080357444717313703224076932964939587950602857684364518761834724236019311632847562472633323850296430726055540332388932044758700911772229249217624421658185368129427829536568852140179596031986126964637984847389923750257791746211887846230257643124216786723002227199770202086612969921109761589764373416328541487701907047243853554205092752186337280258978822465431820818175321773710659935446170163297164242571672423312449597086166470814869217383671988503480640218930612830505624959760403584803417647542577140474965144219328942356574756649361150691747646990077471136999038827781646333469636601611093571382720731570478143262615823893700241264233749131441441703581729011204660653379000814143810759452070483379860213475447362285363471648172134166515205660792351303130883234789183053059044017379573649732997441134507860729840348254488184737384686802210964011700237581195947771169502419365400452106258903579124457415164223061888625826895471417405523511551467954606596669717337018935
def pl28 : ℕ := 97066859470318204680111411853291367845004347118950016056297035932385450875410140003241067752505754119925364223165688474279960644891923636933339233504159040245995618741329590961830861927373984423800945836198174329395911012349959821726711008366981440703029481809140502965177522866448890298276332197289647956833094356597663400846093967952341170676722847944833217593264761951647112767950688701996889961817387502682944250872613111732873953012460015160300323316670428684282409942370629366558924702330478193584894750839841439568711296791964189368042133504604839908082533513051898910977405769625023748349727651246772832677161486783894797229155535268105510867159281799706687597475448378103981707691077557075094740787540934055691239498502368280869492167018311863348767128373606312095756868493094196090464118600568204254438946946826246726743095982195113897570725343312696985393130990927637648113933714753198715763403425217874197087090722936103595191099071508233178248407063857450844644560622863567006241358209778498970642620853490254182012523330373676663803379018529894068217061408502990540314950738889442973775673632238936341549235658075811273529588467715119313737915318051449987966353451962518207494662880212389276530031190681971412622808783883095195400024706007673891776320755300608757048284278798055218921959136878834531047860623133483076705539941245261196484404738235596138081664451942770728004938022931907533247074827942264491754306434346096995985924441735
def ph28 : ℕ := 98210940348607729517355370746042651757310849326731770550037473617221381299255999747637069524515183906252054683472814848605976926627194500172651595585743840010171331048547819805891635267924651733289859469932610915594542151645699744729818163903468700037382830417091904959956793713989111398142592580556795884748067639618010031029970916043747409447050003891784469073174025081194498557788452994762617251902214393759467578990108280498418784398084385961570666035201923759534963002511844377904103434344434628574439953153525509434050069998636613680387640227665557286706030114644195499521462645689143445370591003256996655411690994304187326338999382925148550296945139253988277098299208681409045517908926956930131482616407502421200043965654307210363818723947925394475634527636171308385795309224338315781146930155412693507906635639115260143427081217362094773763761384844930486136559039298143630983839574338599624497358718332772675218870460485610784014661756088209812196979151693945804455341404371427307125672954401930348112917042275582130635294850459239304156449744011625525448107893969465152705033929295833405862437317714923660280021779363229985742302784124968443362318400443297862313930018886196984383416626531971708798441441844825026879468128636654100158217115657097487989051237198630737903135575275219967465781974940816794567041703006554848443456794266070594680568324711834424272524667346330568666476799297767251089938486110919104179176759463699110760291674947
def pl29 : ℕ := 95936930176340650763200426378078955225277265533925773658355975486857650675254720071059013259761399181663152967058011291371613070678623115687039074415996388910029590669541290360512475338983194758356265434113889056531817767735885455789050600934856354129386235254837931906342780745947270512868414103928047747099685353315069835317769402019652034934168127475294184472156358840786669012052143703919697880067315790549732343139341971743996016934286884934772839386046739507721952267571235284425070899638075933536205115805379552668521933769571965931196056498466543012297931084950180147433490774411195941028350894716463598441677144629761092039563581801082329887562584730468183129916745756786537106535271228398127669048186013911929862358981701411174674990029616385468731422001006422446045074652874454113273993432474623307210313537946212097420629159181691961745993826505131597309588159287186811010364437317516251103639161876976272787851388780615188921968165607252582142221620330050633264383403905697692964165775222727793243753778639002001056727165452395539107581904373172462433412648707351156261511802242040131623203146328468611462793563133432449727178756236598117954190471640845926036361628489424098929046716251509887658251536825973672769975856539594727589157519085957020958917106690160474943541747716978369779962409664336151097295231795983788079399619551735528168903407905558496274588798476247214575534731715367552073919692785963888166417896524632320257261954042
def ph29 : ℕ := 97066947368357409468456274238652709199610792033751671063353442134746610751263330957213098573322023883099830715289928693075497798798025441927491830230944443954640198049393129916340445190069137776324661595333909995936452908987008049538617299504385886826085849639293685781348991641471238106497352606927472093301018076505054877038007108119164386886060450568551122008929622033262173347826957754389167209684835672287700144550237873928771155212936011592728532420741855893242740085997559057439019691528248801049898437159049672712194073600041839861538023447368676861808318080029486294679641652280917466188285255171702601009056652462307327863065642629200563117889395165998679287143881231844451502169488201446300098035595567180207249703837346603871239384829293581417523726860366027430042229557816732284177303128377041509739108614970258878378555539687043907973520693298104889268205242532610537185944907792424155614191272053331540674134158173362453277312260467091810118516615274077817801359047830387726132674662536980789435075904458312244869282196850484312975517229553914009189813866911211761868738667734379106591534321211079320604172863712606636611741502780188407256329157078667303212978289561877004715164973465327517297385402069665544539803700579093721361369301090653019412773618899905545664354755390807244896795151657682688028540361932915292290934361481221356967492921521846820528550118197991996812060694170589506869256326443057483337435460172432426828337137288
def pl30 : ℕ := 94820712976479043824977877391640984222908329633260123610311513955132508910031018430536192366437367705861254688283405424336592190052449844621192193878585944126118476602278874289269505044836531071881947435947722264632056259521657221497352656039798102702483800155290745840446551949660041252078446410126791045517276102848470659610234254583139267215946661158429502263157668491379710427535491400669552886808910636198878899000344072612956385955254736694839184070542570306501321226269931394580959024507322891981107900318903237936097651952305253814013438182285666756769346868368094576312904575381252062615073447084700419604956424804701447295335716879366039842631008740451102423949053026271367000665005987514704081492899048859032982819770584213759707940949406651179279345797604034559750182137177164690484091770723808865410253879932160644611368481042785664432471695591218296809794190352317253794073957552878658667979201580219264260418165360146439863751226176707328751225984899030864011043855849735742159009322855838409427794946573612791203132571486378739113367240127212578839077506247149622314317711155167693460117252793179810432086441472558319540002241877350525804249611561971672876914222923063425368013300676279609042593398925831800486972765766552215767654051298999177691180009292915669777782913768304433427556078581622281745880159669970096525162084248746510303535132119329170359682724678361494184639431735080303816365359976180186504453084130558004035744531340
def ph30 : ℕ := 95937018074379855551545317353213815494146489556678448096675372329839916737873813088009387562715712313165141036814035196443502477495469102467208003597614937309905281977212329332538655205663811914390421115992476282855672828174466782296233281723623414998138623377783108695001827072910940793402386211493497595197922122825393034367074894892246016800156724207905915203607541563831252992594225956600534780260677758785880680720869692643377158682993475765433270241035798999329985928275836136303830912311371930562947157891474845854023385337610466305642845115564830846358379607568441076088309256418473926505455532567005502440242838930251988856731714979084792317976089871537128770895542503758051867337560508350527627264401727657590942157620940766139045407706776844846918595447173405039659995912502965913162388395915829745925527344164186448671019679436686169615770472014761001798639177092135529849471204653963291357919198132220601848204864617293084360559788504526191510593582549169685656921503446856158293838940319689672810795957724656860225842568009766467487996184384479351892334748053731214101561675609286042173315133340742716032074121480379361525671240382694770420670056843299545805790144516216356301652272699649501749478652985605473736836565059103758512683350665441682137356875687133885233875021828205634680925416528892323563723683521396076909087112123299055575846059564582085191832984290959655730537144743774409270643293424216414305299661383274832765954155515
def pl31 : ℕ := 93718032074654974288793913327389151220458734851178923827108968891101936542112311623074926489238912913592587588223031376353238729472506154916472801288719535774323200522540920951506533228635963834920388047910170009793188768434207287036927379231769725775542130179827010169843369693884677166884631480760739100810623114668761775959247988534792704094496145226367281489117856761842389873808239037473342685145368730787379496696741107423277703135351293630685316221074846754822829157394456066727925029567041599470991743438484605884955927833048386387370941890909298230723214581324474665463555340032742335155523432453245821702357928323245980614171470711060268227642195192547237006127242279662918751201234999378878634320481822114239315962379250795490655339534204341647949573871437936060122104306650305060581032786640334725987694346700937998555577017395911971501814313863858118937288239274048975944532985301702338347657822642130514238537399416652115908272402418577317774690094665107728866615194710810472731453619084010193441881908630071834669828593900108591772639832204778682812366867358579675339638624537273654779606276731076554654545321542414491404856492008198128818020329483512428976176347987687430713952117326857156071850601194845588070058556330119962699785240408464455371547298790217392976220219300552046363100731702702111277767855156125327401641786778682543222104338673586109501429998594378725732433481903877921687897808310832448889470446543364240297245615411
def ph31 : ℕ := 94820800874518248613322801721511616558417456243663994480718975140761512082784861874475198932161412994906800530058673063590044699722936691468172440580202983164319886198046152894375580175582580048477675336813325613153511437796004900191667147032080649576466522537884590069854369400324882655463111915720402044133350642724423470243247384938483295102620016606223858582590766272186829698564197781544946471864404352919429094221714460474844455201029489967596747910427111158294659125911013577934283345305915539800234434639882258280390292147985891104576400557823182626159539377844889096786662668266610930103549389748745864509095983927181529418916279709901518093792105024358574973707771495187515941854111826212232231118293960314212615792795512070899378789347792325412194031121827329361018341586126337564930831168308765618932549976669723458085779585603508985975554238367307132424135544428818666952743882257550828072011519167699313689245142702741514175012425795915554064569897114696680819735554966752392068110611796219245133417854497728873778267199824870428201577213684249575676699073449969531982267817542607929735322071376156439499273595732207953612468875637640055316312573837937799449474358749508325787977899426081848784405931002387296519221951203656764120509924943730256629706836044429701162751624884352043593068388050843037733416084466020754640970940935511908724588540862136718788147706405381942349782653825368229008752398081513144046455544751248449315426894733
def pl32 : ℕ := 92608319329694521686615905659454186129965470471807727358175810557555508518131632993163250593490484863143077621805037974276659179406302396147528547947149303497296217759191710888747745411595614669131714733596423679630075704976121797843774939807819482099519139633319280031474654354687504944707746813423451391047636523616147369579940765574316053185499252316431153439975286762117477849783017684376364857650053272966438906615476154611817107510999613295603998386224638028570560349416752519965383101474004989631768081333962249215425966994522980461983103252979259621943178713317894983928675732629586057722335030482356217516014623728894672396355060272762730884635154502936921822274516415434580921800999489068718200917828485104169314823594757243356403488414822422120491903531038989522770289772603455983237744164264961424228202130038284260061999088816310103821238732108135707598827531072818535340335143206329859252666178610864821766647482486784616597143436635828807630503395180197352131043565186376591497672609574419880087116210272630515373811688122797796889708535560823842282392442690930415480292321433669805474066076531700738381136249074179548673438012822786515445136169658968880567645495547042417700502495212490594105460560237423170966765285466095326075728491194884831083597700933673152706143523588241600027174688876872837689646372258103826851507730288595634543892608871897286892363074426608175482697640328688896547139735683175652467332228904672668524869633834
def ph32 : ℕ := 93718119972694179077139061610485681717692727776607597888956713451108288499096155901938573062548132624141653817914217337320479579145212755414199103809883275510541662467092104231361944939088610190731317262756737301889417650400855202112820950384037634526929481178454805827093149233155233959801698900252086697100295743272051293615831914523702343846908539448044210915868463738455699211506861569482126225425361122944094145582155773099602541115337309122962210608734838982231501835360450967187875121051005087123187238043070647698392947834667362009117713344301062321475007110551742135063188805918654337951074450269690003382922048230050374968693517764415958850462366729796438153424127353967121799074422471269482877990485327490354209439517183932320504377116974140610846506339766457218326280844858575233764476126244860997221178828077665224716134740025303123982596773662098536213353475388732420748249666906252475417251207899201541322472957358618260760691685260593872603079333409413856474056811573602180369768150070390836053701474565040221804653835047423605797399609396846738127468372595943770045099662265049823179291807254850913502793328861871163780065623460572511619768643816411240673582251283547667776988078809869528980807867518185342851544166055466119995814394946984997463741944149459303105068468760634325916232656560449836594733648592134402906167921353255222999521224923684426406345031061504485190538582953872963944377449010281512415745350608100428208596395316
def plTab : List ℕ :=
  [pl0, pl1, pl2, pl3, pl4, pl5, pl6, pl7, pl8, pl9, pl10, pl11, pl12, pl13, pl14, pl15,
    pl16, pl17, pl18, pl19, pl20, pl21, pl22, pl23, pl24, pl25, pl26, pl27, pl28, pl29, pl30, pl31,
    pl32]
def phTab : List ℕ :=
  [ph0, ph1, ph2, ph3, ph4, ph5, ph6, ph7, ph8, ph9, ph10, ph11, ph12, ph13, ph14, ph15,
    ph16, ph17, ph18, ph19, ph20, ph21, ph22, ph23, ph24, ph25, ph26, ph27, ph28, ph29, ph30, ph31,
    ph32]
def row0 : Row :=
  ⟨89692333441986493303658601669508704942468762434390568334933092118336438548543644237760705549032767807984566429800949891657556715855141063152581794061771198637612973913051996909667850325594251451666431477022330126022500310632510150807840254997149433488911147269542427589795128709522825392722064427025225438089083311650292931805613979995782024698000194763667214778752887964449490499800744147360166680659079525197429339483753598300441589728379035827492298644483200226440271700938178250389143441070496472878474864471534463642861761202394200376336196227581514179373228773317906052145791013365132583177988955160432682901759676303654089187444301126481892499047560389063517051272508674872350983579194398374227060197025399563939711984272657466563802597640681695952318587162090029242476568834337582002040869587748192412363260440295708447575160986254624497574483241338203689643679594555768585366645314076540452173788513113426799530924530421123287077245942829826016398760945116067944435049547315495488,
    473675539049696896131748624058737326322629413865730596296681423111626668719941864542135248407486606683857302736875760092039588754753333825833259468440046923835212417197988156781690355391115327773226887939781470242026979149202018265736952867124521678858516578991469436386575622952494213813869102969450839166870678005367328164955070394669498476516852603804931754239286327516505171080366147751953522405766512848419124966862416795338285984737107291978303343749751643786775432749380942443617723752472704420243882385432582580246804607357550690676556062277419509376009995496882410153430748629899116148541379930542356024667274698538793353636469189706150457841828086112587492626576619112276908141724508144990175698312292758899149555145330670243518214367794405742755124117793355549334021511145132314032402534552661960309179061049904981671089419827477996796630599524042751728056081383638470416066670033889470942020873548842131402820502192992185962789195414206213579546297900392766105345568588585458113862639977825707670761325120,
    80723081864043906248478437938970105196345037623959878525444459840313318114833474591873920188823219331205621778919240830512567956986160466992622664257270523870746799546472093535461107745751529607688398416456158141633448387820357388686649559006400908749414501577427818564530389569649431666150753980938423535724116777872347195721679796464493398053197397827149587511024829713425935407148219230566582701798791424699043606101263629382135603846496182080425831371544663823122145433648986985580371465158634136239287491033777325569835449233943910033241842473626928346862404222780672298563374311886910306593992124133381826547974080030558229817999642404948593507191536273701490271439908692802852020262513254421512128128850354233480895482369992661590939426305487961385767185950274586563952481521944887511765539511174057287686840615320594472266065657713871394227793675485515709988842195014630651234586391504767134548218146779835007091550529263743162632973059487370743757343634676026729793223002640302656,
    947351078099393792263497248018345445028302856784993234344644230203415640586984774686186617829429851100046867998659538911429412261022454243012898473287090132409532241728163254240609403284193539685487541053949055944829815670407555058862425155836354646016149774406515650138432315594631992288452005681353607171358281015194814861132071747591443012896969563899714360216697848850165103509946546123370854670838349591372230102182287632649693671989508495781812222020748041280705000441133301363878870521864501688299482027164152789377746787872531266595564983183503213130623777386455461750258047532962170088442619918721549732081712887619833883450913347243154117120634837971899462864254230714391746736634931974481615488450119051078829810407472604607731034593603431177825533406453312963376012163738585914544107052636611384661887687515219178950527403483454662561039030341729493132020616238413769059598671452008011199799916606745826262343955211484837285254857576258675098400272532260818931373564202978302680111549329355905088745325120,
    144404651371475072901446057618981500064351779734198298187452026397124333683077785118014499752951235898808201972615455018108584988751930322804192443747664912260251417459483915089992696056153497266724125085993757780534135300307108203407332201248913787820357196873483176843488967223315271044172850557766435836727396865370090249760750625538649436803124521562092300687874031837728968043881432003768772809364982898038865644952943678685404278043203884513335631262437712546565897024756987660169861692441381369170851949770485834627492441140834269834440303603863041671427780571724745335779671848042774005966200509430570043705294930785902061962784833755202395779628762975126598792751187337994657752240583704245188855170540351487690751689031997061223870411233643839341269307257298857440289785050000119086059404990498165383510677757449595318171541592923253885546674985427081644157458619724782304257713190520123849347402070813037891823372714894641939600617755037867082124719930864809102178321522403214464,
    2842053234298181376790491743955907127467952599408511744785214074130124816963039903434624079247030742607286492313243100127915264740164897443290357337808476514694192905670569922780045752100962595564126900544551208794702310783306055719491694784382414363474578590188092211968314680351158725577897643252859463127989529606681576470736402112302437439433776869007101938958794175153953165535643306843661346866743656038436001463190083228555971560932848453588974474909787173559857720417255723354260344547083757250185236977454808160889038120622873373523412689678530471135361431334899607722237316614739413611727718753026735737791882271562849417411518982201208950299640519925424183317290808768909037598890648724300470138520585631238024590085467294265155414822870691061627154112593849569819466642238841202058012192078754997462441048006989709655348248387805220927329834468631826793214965770528480248912233372063430541131201279011846754561868900682203050694122039241126980459896144924642293879228199291894468729495797940180527215445120,
    0,
    0,
    1013075783866622266579147821991521220693603706158024030134814127216471849685001337036527120331547006420338971095111666644530078428763172801324303299961761103294837260498693597590224165045660011391348388302469232168390418516346886504479793388230867950894106915635801321181028970377696482248995448058851620493894937403696221217105411075063990974288099493846474021607205892498618606148821151866313745140067777803506173729186950101389538121933799943271505390447411051234834868602582938243444077108018714747573478255279445579900259793749362140441938163043369059564347080304941545462542986629233113419151445810428720957744924622248697589456537424653408718158433422938013831152521524428846682241575261391692945104479053916620661157797232604263112258711274755954288955634320304281717766139132070830663527226991517398863528274999187776914512216735191274259569819754502841175812582399910725099121624799759311044739848606244561281268837265112261560139866046791646985842948348795386024907422165358032326875759176051082748188639808,
    5272243588030228631297882146383434826305622383066813816637427309687604107442964182522055309403893650878172029936430859694085467040295428279141255619463271223861710873289870177058210895219653626951708468704224339181393194360453851080876737130571488648099611886613761996431581411321773809586080939004581886357229014613666122196023343318148660988741914327469501081198613232355445108791915756979714679760553972215974704699634179075804184860339013896343492770563967029237832023542380497068900034990597674244677653117517719665531482071824266682517850480800181921495543821537782135964433470670223142614436527753868850527692461726271159830204727501843651600775164105869262894744304302434931565592329999124943164875623701758423111326713202963049955866903173553382104588944606075741436107867244747868310042452419760064079214013798737238498597272076620263938817236857016479058002342574089486376945934152195436775000206874155770601127576884674332479339831654049750099971027208812209320200574559872689160724583230614620845406750976⟩
def row1 : Row :=
  ⟨377281422709269448066290117836423309780767848861178842355231419650609241744814431401694668712617071678324090135077442180418300212558093408964841129363539613270988011065274572482596040506778058438812966081878746938240590713677776049926505381034715663213582859832338445425293441222321100556389000427808381578657665621489758728593096534340281843935855348332135413112094922185362312457647302017358083936167536128768740200028953831122935697308157186181145948024350895898774366196761524437695400650659737220477775955839638542392081709901558030970681711588981247639837985346203261181038122501703935281599238578286463144783952625553541414278939273550933095951302609991915903409128716658654199442097152014862948790174594848370166604518715365959383124101279163061023983969176589865125858398245016319501801710228829382395910972307440269464647316290059723640648557235876544730862787215432007504223851326502818830787275996994832019024673859278961164134097068297392678337034907229821348333750539573084385169992289809522076693774912,
    846022119247518030758126170135446751895827887645428060787025608965782377203412471209531573314393574410945431728816804618935279176754370704840677951327760868975973834204034780008766740875107798188246393709771780545408447015594945564832012425065203970265792485711713809904252315926482040603367992926873635347557360761091578635028362595630072996839117207916200925307515709426173851724274223624232280054480054817824076310253132867099524419042137583230117588590519308257740846228423253247502217380950919178766187006195595009545060197714110077922065318383159126186360911779584331411081239124294974059333958401585381001966756807684370372863153638912549371794921098642291144832529726925521849157688414415112531623931947687556579383673458043410481167732288244177242076973549903122929374303099184879009959754166425566771104665822502762820291804503740557708127005025993606797060845566792662595408543529368153060398688379599527825161076106376053167427914120761775009062429782101195993434212425072835122968615062091427851638096448,
    667787049172146246334960693707487336722596451881217950197793884066287374784097165537034565197057287495452464775081313438269416682196442939609174272580608758622118681994709146593552104593788421548042460561261661740699712298346935268472347863482757283889141506580059542286767871762305286044050966884135159563227731900320099691899749377663075632486334338321598811194915582576993494863500693545491238872373635075890441147468761335753227687648832336130208581751312907194367116148179002619950278351682147642810074981873572493382837918369855809839348754746501889022900665408329454318228207622229991499306136373922833168959522772750503375718615684273126978462886692252625237416153429137957556012269648769153976296897205106886252115629752514430006128974076884094228397605641917434922552611058140739987514599920123500991127314544963752824427301147830348377370486173814094984561533113226470395515861602199077145550210758151731449962156894664643365774299422897183131702339829847258362018932584961503992251178946073158467342778944,
    1595809031017682183262969004601260898731722459767221233289260909652908514572657540965189847536153732450521345423548384708656786552212822438510780049310172347580695580469202267683359202000306524451827135136670439869680706274205860935659662559619941451803203325226525105481679107227912980480030363999276073976326972663160799161826055708595428075945834587501542218342522547160577059204998345834077621004759440479924023127851848279699502573147123488275965445838534100083887445388441657767449159832944751671652916700560028518394746848897085468597699897811296402049810248909382195152970373467614885726228527662745510154205593633286373895916567672286387016190921601281040367654428765838287153185890428431530538716262070174517208764893112864361346623915195339834361662996694967072047998451593557021895902428923684734708761411432437629044459801589549428303250427639619267548338712151063334273995395286692880845692003351763281756773387293393559389645659490574965259149734149728780006861458986101686096253694366616898335606260288,
    1761111808890921268062569685479272010019359149137255293625859532494879280561909146809639657396998055462183179550632873900798767509646378636303583447124916842504574008959410794097155006204383388941710835445838487309229743798286986014467248435692745909824637910157141378337938822372903049201809188195612366513966059588332748818490998426590696908015242099005980712146770188525898945287057892924604004169216031324280258636281991093549108709256504454130730206603855304536114070833935953297106222105375731081442203148659881440083071202657405287211317034813318178327484446740955893327285417920457348628369481169750670758689847772159469852382678584577730369837727319251085088652694308597631089848203471774514217923123899221686983878764000769669323975846813967306691437076199795708498461780119346012744667460092119386725929805689895091770962084491490238703431918858029371384512208376129870100252518321925825348975272708430213406072579888265389487036304768934345769791073511664042831574457928708628459722766716593104363274011776,
    4508611380408272723521340808411973789818788409287944998309706018356475032769143399061136809486410243278723185143269385998667817282071882211653004673711936079403280641269414497195913310152263464072657338109372859738647693258808642213199847960095737313474531276322996530189719161064803481846595852159373170170788740599116675974649103347613043048432371930820194386855357211162488705118738397373030573179858234100637506512162448560270122865245954469942766179384035216283934683824325768534883585143295202172889111215221346729612858882686308663411883602674459336632162943534424902708941152002223244965582165501931316238504577821288493154595411415816286939732286482072320166701814579983041321934467304885101749943860092132600664194190054653371131599106060675630247765708130283348524588327704296058414032358855269125914882201384576333095441603116333349123410429744798586666218420785916517026535765018747981512706770138486612794414769608307536260436966403081874367187809288328171659249935131542972623652676843034466606940849280,
    0,
    0,
    1928931125304834522069526250374710793854532641907312611682738286575384728167724018486109778982233963209431469933800939422622864115844251407203329044467101441104293372135417757641825546156207132996206141170205858871255567786556066189877490504544586424313656022779109279319068026848851753897853666606333770842751450672405252018904144084041701505036174025558331324685273938406045328661357613403937632417852222551934570065655691993639130643203160668118271095709623849279622953005642348134713787918920219465420590408241857849894958586085509369291992206848574609681603392084509896653700237892875693610170962169612267612913969510447886755155564072330193068607100362508842313597545242759881431637971161488259522217404824627728799479764459941276465116248325650962095349847068379575209643535115354673201442554654306196029125883827443053314817248827606835866874733941338509565004363268853980457698406890157639558838533968393969145018160805527518420136201895903823751663903952546055254844622385517701902948800898932585087701566016,
    10425866043654121222438240555526891377649894811337337326970248758331568869790731085862682309724228526343173482139247338612436473149063990949100787511155242162076826015199442475376132364346598315249555601886812733335733356354189522070857864203611812511879621292089499755299858535883536006922845597300079046648554855136759237329538641484002859918842875388259492781051598688197205944480624284301603910676821335330191501995245913927456393588855912287800563365970610282372111220746250648083582055783455158746848330750273945769774525090635106801426002584211622775829783101132905465361895506848008889290495134445499838778112850906547547668127744889896866314106116473628293650832025049607391340346736218379928200435384635676312169770459912629624573093315689120809486651532275845244159635891261721596257510665012331997797723573656149772911051261589086324907481013293630955872124738900670821526951552833278752698985067448593372823418309755604398822614835423530690999773968744877538153643657251550708272495511061008240306756061440⟩
def row2 : Row :=
  ⟨672161376784753240801019027151037992936659276147368336911492719692324863496388716360679580101491722711661750486260813413351987185236662159530227335049332956783198576730420282612365321850032562580856263767138221057916434216436997057035382431659143019050245311419075055800615014324192582422390811705437987695471158772191985124139382558485757739582442912840078825699871170028028938672078722722412632086556260659755738615124869533995243408309081496671958338464932868747262962293909744139072368740140394200824295141598836862832800168553697250211512382571358584295266575155955015945776032494383000085516118857568744428663493795902790840784991279949979950174671504386440663402870865736113198765582197848000192360400154888025672503772621536976715527521540751187931543175196156537838958991682656603326124551418006234739622681442735055250294820239071147133041119713605418557924681926784722977222641829333366676380171161869125281514351634659447746595639340872072481153950955044794212825392107951903652802361510391465045805449792,
    1131881828404534824336293575496669586967250976037648871461024276627166826799599940151282000813875787607215159366936728809698522007881285500509659573415875294711663447487874122654768162735694483485147640557252181878202999972967370924955562834483048874540037413007584254803366225095798848145767024537306366020563547150389404647274941737896415611085567294494699453900521329677413364162345816133294453623195405154166079452901919305054009988296221321543707972029324336146368814045492489651346705472950722258240374665006323094712509078249871850999123379022379722268716294682494483680416800027224777193793700903452207410971855304856279104441919288869001901340349902820422685438144537543641782054531780664547595645676440258124823110327135664603464487292773232858030279997441085825413291971906722507735692401082545984349541014289456902900817012906760403412388241833448243456714196160948486858757660950870053380292056135949064313792005277359206218931424273919900831154667284343239620036392866247581376520421751350930043042742848,
    1109906177267488060856214523877119585555080540795585575539499660321215955963956801912324181549493777515098529132730239138909887158813354884142991810116819893256419439449048664252303926125882126998453986443995206137769478701224911988465179026562084300375036020839034501305180569489332663848470315920109914549467950902042302421059301363775983054149584640771869353654048186652299972708005097279705214258627428066246463539794542906176235104116940984518965681518651181737546474517671228853857011031628149251497172879086427156758521601804464621798977958387435413068347081672182629669113620856441517150819834402674043963954627765659587201689847161600384094748072379674395227123624778221023581478688427917622364551111275745619742585866274074303828458970396075754022198364457859068990190903817188681529113999147944804525011248609670584704506904514276533702055553135285063031729942041480022566379075396600044159894642258477621260172895452368878634646137596751342827726032134031701779428309735546906353706125179843327238882673216,
    2003430489565779933104740337268997675222899048923719009935865483991123414246348702167831396229219895226222816777540182942094383112220450544351000765143875970365757727422442861968735578501743399693277156496799471944709678947184932400462668354070905698186941961347075321319747699694478204719181433093399557627766547664416631865576133985812778412131259877904975054829124809037519483274708819247662840959842407597731484533432907647742074680747483585237037776002904851944414169474862812826632935642196489325058462490383554922504729564773543700934839229252396936292596509175281612077555273077972806898310165577191345559853361145526430393538438412937205258033291159308632272394968960907029551741183124977829627490819283494145283374087453089524650052310861673703540548596191455367790027766347504946010655882320773301701497204534518029672285610800867377944369786343894948153190750721214153274031900434261947935994656997766097079948330959708003292220939806460421986716403598775462547192585994036933936988052036496579026568036928,
    2700661906439430724092013102270330058126640366022709821273289396568153899827720404614248518104357018971863571993207295774734784974647541362774647024297991289643010301072547122913770835313812533890944765390425694055337127436320366928789623092067273315218246606057572091132182109656265523714872771728549304049959877723678846347212319361210654599648209990287926681059035130192870795487382094701254865351216048137920184266996682411182448759553964582200746172139973772623531857633204947139254822075615617188793022613511376498050381983913117638714965391654878266192326691853072818476240127321567758903136151417893370099844300336883711367800364276615921543961844006791634620981971108055573202032334627953971113997426095569153639472646983152582530769407081994816177319324744097037246810855367628480127022538594020194484956043965325146173368600544381485346004337190318442672978587523874432631109455515850354564895759452742373615791588773335931151364745512532070933260126380895128469587987098716822378421438171240778729034515584,
    5283511671048172672524848790939024284293486359989406560234224249033706030754203789216020916709114174239331328577252596335241129819209239885446906146105450534616568361541017620353478430810634790496141289072381767788597807876865212075574854247235984992091081841948620457842462555890173730330716275151018198892703438401227511880778134821018406747671779977796626655214086090248522784839155366096775494543733771935685794677784633950221953838800339472325221089469814905080869533731628932716240017586422519182014202676263758375519737674498686211586541952130762829350926705656746339840878502402428293210633358443901491951318420909994357807476056023080491895208550589713171328250305893605939505645339480887137923201055530708118724404507429774049504995072267074374523124422725693723487609127926610025596112315368607860843878068170074203707007204912658114936946298060747847669207214553579316810000146362678011771183447148294825132596776156137242784678008757881762459190502373863023748460906934181039225662596663542505527672996992,
    0,
    0,
    2743399722850053354304651720653397666729544058004607261933415734794250546129009307184285679664201788414831091953321121255199269797085823861711139336967457598379320038393652091947599149201992781947628075873417489018728891458716482793610455746692323211795027268524621701949453489209092009949101149140711704270186612429568461695895141631721588576922386716053514106697386780603425926719624132947812229334142421825239122144501267161731269674702089560213226679025883054787913512770644087943385413752303366060869930008093714156297797771684173979385562946993172602414650243063765691137945843632394693681361550772176438861014563180561264946424184796800570581027966710206043979948721308561770481241410221861895724939726299967770060677448239834879971189295599903065923551472408558564733281179874183118661839762381088413908263371522941697887258879726483570612118556124045701319827912011639707945079108812437946311877500177990663488514414953425008449157617761566742827441779852877933518195105613878980733764501685845692266102866496,
    15371872625046366912427991485157172005246397733860937212886029949936617040773286391742038096437163597171351934003996156345768829498086259347933858502969741315530462601636989281542218727879313689106451926796977844427368655944181394001755644430220820736787935454103879154132981245550456467435147597682576139091128956138052674295656361109702579620203871670520373711363053882075993374630070000244528794785349503534427776803886667454600774420593397871088863303936575357330477442419146207484800472078706519136238683633709171058378099960536889326162096506078044271706227644919204595789294248308116960256661426776425099805367535615902206444109014612524266724582769551564018961587244395385620864886323837366900985137361897165268152432713693612310853809497452108758449722668081355398214890038426689361105553709182693767469634868057915089364125058238317976566918238466599561325058136640624709598208333774639414761470440799263480078241104704666264280798048722146558615282198658679127110634286294598105921754488748467254025151908096⟩
def row3 : Row :=
  ⟨897008750277686875766403191332946020639864042792375538181441956837145321070236072780909830760041607938326746090696541557637258903705315631235526061201872183866764303242428328255411930205525898934779194177463675200310497106554666288438257687483845283965033131692802660603283468322565341247673554644887723931442518458332397092445138849971696764401081874004523122521159511863795939336474774807506577112249568733554005107519096430693666250692789877980724132940215784120158062789451146954234566346753052661755283895665422271674545947396474618107981260938282729354581573616470532533807457891681699255276592802350707048773718797099978757302510032669437672287858892797360122558875404372844699803487855610769105826287182373211077953136304709937417459426455663683097370323702179920713506111752829661201211159160003886660649403109575906279467482472287551227007483973906826001826268124465572907384588307590697609388842244867157839062086495452179805147056791183515977290089521175586824890977944474861192712505344590114281002844736,
    1344392095618847675701896310505031668380148380381003844423183191982854073158457895164807907043376227834917885589540015171834187654778377357373125942055943574746463533748637796747967564243574788705034760998405626226863634853794393350842961525891716721821498961128651976931604162770062387230983410191981225624479829744355481492720955146168909283971465754685397033876150535827014364964304218355965977531433574381683915834689824857156329588857189620222645519385273450457976875542867323492994152728381830790133354900132298982599829563124411846675912066091603281602360736486257949951676903161106220181981951865466281926996931176555796816820979105043698480546200206453473903857263006365217911840830481217686965805645939459896963342647995704276806265840763496991037103543777170705659115891434152996643394524001844669099596229615459451063993246554167894047494715545799816655682419841693309284071332871463862227912180577881019255362702494687257714284235928672992614922566533441190733965843784420016904049058681808612909604880960,
    1372426508317081273657090504210053728954196861757442911637151221927884250397475068811340728432774011269247635538970956495130587428598812828086061685074723196690837570108557556803154612325554313584397032501960192167233133142305640409908007075151321348326496209251948355459392605916061692465228376365210363191633691440408772041846899321408353429360289787560120751038224410546127660401268324342912192626267993836465759365902711787422617294371378387403442446484158301557143924451238581563159742110761116413928229922401687739702577199101241255302148528166138563693802971071866657537748072940951901282113332496883584387070891955817611731166394294617576146491698262061397224160813866883297721447068138200926067216168240443033454704334055906390603827590328569766636005891748547412448369762864993406488611474449282464982427791894199201286278212337263755349051852164893084525499803487521632335195153327403036498519783152686594975356254913676257655979943312638648263395019993795296917187692071499476501535801477559343387931263552,
    2219925035365155562124698714151960708886871802846449155411951685610442116628792140145932661697418260094641133360003535967315295946130829576578772658418033033068353555371323442296393423855973782422041517542873095154981967622027618244561934684833274086910645196056081096075503766799673996444711004960035648131029851345202237068086935854557140751627856103819756522617022987054501128511109815686221694015942345311995676039474949419364326683506375306824869571155390572987254733582592317272117469433611352084702571442003565530391658868594531628823511953430013648538772335405902092586506960719183603055380154992861345604309002170831820041936605718628191055651197069481283845033579047996228093599833840399850769083304286594989389451558412896502671742051723314887633059222644918686047688586514869916356228991599274804153938906961780221454679347021501526745154449939836157461694859506671324648032933761824775858755669083155611539759310597928268419182119270509647034418011771524537283946750208594947252501529817157950371011707456,
    3032703420457682788175779187681785170370208233208527978544234427662873275623217233233581020016494051649381342694628616369400461397700458432589493423243379838922507539229487545136614932800314389220993192219697809991546790600801264803269331466553048884138749411426191773140955077274992726470745993711632555142063165501510662476572458377922488894470419946837790308514529014256286399686083820184051895462894968569343542774233318634273624355582091862446085965257293787958914116219325839606772658342137553007133669335898244532137545896518844211256889875097595090348759253138405637038836988162821996513624032321697830037090298744444964898631243718067781218826336086065538648977873495644721148622951154500590351565724502764058654948212783170631866988162740181996636756045590761012594836091436013577764075686996730455376715733074138466509376139780298593672001984589343888852456908294168391617737214161602637200991499324928960382775885394012530396698305890921141659706461545224658128143288131570394710535378272538863441928946816,
    5401592513320058575320976947546288412637520056940795068446784701247846099955921531738289619801471391949196413383462022714238303987174725299442737750034655154343395478524357468407897769070416979084582186322722040884707189696289275001113697854399853352976448020469926021158945838162358214002236255435818085797997446570912986148330912009908714720019577335207995138247682244477363395406552664378210138545358042299909142292677022381099957429255877030845306370626688823629112602597924108769402435397338190598577949683782238886349366891051236998256831721727629623249233050986351537300676647171871495757062288487054247067762360981761171207348988177934838001166284680247427304157667061829395295978879096620617436585084176187625282794788725441810251849654720349407540442053135374309332085302161529761988235293162118404517793994037212581716619431020916621702496586053637863554306947104892457808865771087860882723758297780705497737033664568803028624259045295141479136273442615195988882974670228259571549752487213873947478755017856,
    0,
    0,
    3455083178507231348937382731254045167569989122834631835521106939730987204888633789245494162978044425296541164023929316831694186191804294210724484218760612890036237154449311013113272197913466558744337371647428577349034763678556197915814860185380593553986518813959847709556448101050543683900617535021243317464691199280999012261601590047237625751965526699195099400967559526977530231990027092585321888860498221023326169064376793403984681371017185380526441604741892041119171093166348035571791879753714077361430370622846676656026228507363925518375066354012276704927902077084409490971847874875565321291870739854646330386044313185949014383511675410299687623027112485924929869695126163134204274573979848794431747717248851948643616618127243994981336762679025994929433297353203577427166829197222947989004122727236350627004989997115273143622681250502937464207741674966999370123810901045584580177777723991831132508781980033737363370579473711800454046895992781377857262024994962489809812489657679282884730698198036323905417052635712,
    20037991581281106150689867331216705398692927907220984100813851606981909634315311642125805047993254360726934841469907938209113684904429955960183504491845416769700268717154661012764616313268719402248580613889040824257310547922700435626091342434552747367368062300344374992722199355082106062313255092615712063477436393358919259241718511962247386903559216539734394664068494005896663500158618360766941078322743069665934495682628020071801337615162538763905106459226087924123628564976953171516648272483395516668002155556534764381647751458631014185235991063092490255563826887305408517103258161652557361724183664549908934592215718975857449847051309076783797452761810770446399513293919101564158294465202876550474381899207246403390444079649271142600811618078533416461828636783758578156768490095007641009110404575890465592613668011572840118927257956992811781104165793600532742716437007715387175052416431194642764766318782591236434079164814470540029569889457688276574877523881904746348847704187908800815781150326217901813319973275904⟩
def row4 : Row :=
  ⟨1062730469699029008252647503854528496591291143873924452120475874220454910670794308716172431842243198887498702947386783487978066976501230673254435398350139268901352193216115256099072096114140828683738224371023917517718228147924459109501108888103674953008046537712115474250823774406804617295995904608092884650918581119611641372382658659972739550108525482551457906956611647388240453780973663959848028751557249280577222040389722742086680297645461972598660914672323420715068406644351310143766729801084624779849405287702584096815800775800777755989971848612901889538277416499068998453244927256479396824544783851074923775138971177756674345517544487513702786969643964794126419467759874125193369601673509927180923261041484495828362589516906997382381728450732227660910984815512571886299431105855353908875469600578827176685420483044941625141239516457382669711966018306420519802877723335821828103292919983768664174525968939713713349817088542278701520555619620251807961933057340277697622837794136513915272083562755254511894216524352,
    1495127264626324233356274985293075336295772627828388241027709203435673948932668562258100614497598455646410638124921095594123676875564410912523657375245962857843582118064937723144993360344446823234229241295549284944554140863794631634346482439402782806273739727582567509849608901073591858839648899463809493575999713655694008298320353267221877940962850468045330441230961287527370677576484821205872652696751317437170681628715955687866492071968689233036190817108269332458860084668714342853485977291025607567939092521403878700132373421745180869644781405895900285867200310259074130434203304148008547925390818281979647488654878324194712197174177148002882546500022691726909851639160880418784442155932234946925051834886027830554074677155343277352767829513228310360340186480648240679604039255839189363620980675191888562050486073004309534118337627213569220388455731543493566891536830942555625695180120335136457806660274127751319425139896310950098651137106200367296440781001678896772072384494827755261605075670020640358366203298368,
    1494462736653471123232633362608032364748817740418054629919012470036393864242436494966652005038070169400415070906866559903393347119674168215571935626696534734732184503385785610473268290402370034139804102224264993570970920959503163563555743044726353526514339089292765858047833550573544058124581718136406887992800441205920149544161511583130734158700583951714522788390232509585962730607844469253619750332345131944565839938046702760690351314308352109630372478948520631020860871774406341082663958412741505127428666732057138748116932753928970936655774174875389664536773708977683077860432148114528065854209395174481305974332996817096842167412198957062386371081590799251079399285297601086769098778201311695360379440701547401586071988958524077274300744631512260619715402183337389075455392301883076530835082580883804241839047727627349598487643440123472523666362279008085601036804927456973177219209228539194850204949467216898584293445698170133920126904707206584457067393824007733603102069341574021492120613509702654678888830943808,
    2287545090481043341836474959658104881500845317878018478892830061840097474650785141990799190654358921665993746813701692525486268313080037800076518088012959314774753037773995694404275888632319172593175448281700097570161164184424001117274500145354763393820941495718075256031626638327096587143316802689408423743134524640736674946392231063950052686400484799838478242411382681752365802389251558945150814529935247120282077760751798170933938275321510593638222209229668706079797707425402066105171223534586345127491495954320476679663871286372984598688387956236417939111004204102951269807081919567997386418661810841407155659297838245923400555800442354034827590460263417186739936087704767873010631772419656244546632959170238601672692410748477158890363802819307912454901902591088216690997722658024132972772075055048908473315410340521522182742163240741605510069314523832991803525549900053926126127687696810860423827098731753853411183887211149375244843813885840562500899072616221840320955154306160648077496635290205480540215425581632,
    2931848298942971853019439527674746134696883283117999201621660292931513605413115907531770089174604113028284619095673539252731281259589216186025403105070573714950143734492031271257505455239491885831033599467361478469889958789741983643577657082177294767647800765939134071246355460100655709707549697957172436106237297584764491096511964298291522798995505777412916034894940800275325035014246130510058391215627813452071901505950247913554897155057635919960692320422428249927803383298781627475321140760674860585235274548249445864728790269365952510746881383119259420069083719334042258638334963858664976377141759901369730655827443784329383634036369823533656870537867894682058286559004095541835810105628572891660212732038371165924371867846883280712125668448389117350972420850865856759235141044938075121921725326071124075066098995797398095128514698872703545109271669088076374175869730874247209014961257946535114277970538640369876531680670346572678708393289294960965060545483678472762712389783398313614834674313965586108278040855680,
    5054876488109976309854707377589379116414887282948120061282465577940699245211493881776294072309486860485112462910033908252954476160152267258507361238869945526947503729471107615287435286130601640622593809732628146098113663539034847581948211783724295086937733548408448184075111680821564281619358904717506252455692699486923407589694823744113969916845850075676656418878164389056461729994896775401119005186418318392663273470104464705000480073359393597933822132858414037157804210404699422630466729581927857136997387113514726170690897887863508936549607883055170796366614136658741356302010581182523305545802527084189824792716644705861565826437295438839146922980385931202884484783029790652714985051162753148366484979111276117604102535668121563033359563684376240086324769394224110731616062554140597516472478018712067605753504826605942421201614202020110779970234701704141452986284134405584573924971155161400736504780326710212780064609784160432056771389679152806453847034303916553671451557746438227835527899713353421520882597004416,
    0,
    0,
    4064877160413692263090888425746704140959770313898399362514325852718270746243925765354960985025905394696681419702682449327141413713024163062336215971270698586974438299954393564866868139316392539300557523939788162034724278037240147251044267342570658488735202555802436955217394502363178681105746172487993185997037353294451222580717586126030526868197346768697307293011405075263372965665163559716306013150483563231965983319817458266358574943663549075323247236929011364656657808596410211595510024752242528139155808378130535658317572585186387225823732532346703085148804149965735248015544520373797382974396823569157946723416376176983022904921308980097859045955285205262016798615755219221024626063972862886071214542601318612841688653208416323732701786666965242324447064396726767521655448053888347466784614814576292966272896350553481846186860203109615650061187706631584958676651074755303224432567279977482924091606321486261889929303411947401382671652624816970667127937457636841860748999507828839826635327316822572794366766563904,
    24367356653394448009165109759050528925419244239064174653495321263129037533485953338348678066396394925321442379061078813212886065191542154281988148144414676768441206637817577670657583009241177869446123465363964626153075827351425556306595540568478097334709740733850836694087732850615185649471236679303870935340833102740574921551310672468121882315644945182222223218301988670057427418985398230877937358192225380432104876798385550353291667020144914321165891150346743693552750239812174532382617926000034064207144534442724410414877659064753903406798418261450020041630095793383942164951077310449867768783751902006105374077505909294574346578987148614210391933275295379407967477862996057177224848213365437521273788677130947447535457396474667825526455990849902515262220464303945583755019274116914348158724913158453087437656967853664416303741434192361406675411725243143959361704819815809747703346013430801167280990430494315104420711340040535615503116400274961030808766095795416819046315832889020764539775018629968455499761458153728⟩
def row5 : Row :=
  ⟨1178889959353752657865203142833288531347574677848956490491165177899084954769326600041586358387488749851064285054698125813973327768115784935385542059416121499982731983550923417409545933264148889612819102838598383219862511969353175549066810631657548895127664600119075965945097489084889682771391658027862500850281921147130847662738061487757693298220905144955038465906625304829459568784270951576375189932551716368564402925277927511453529591066622146989912653907640695003663676259352485305572129884888264079911668646809912582456649778933318730650646325992846558438719405058497443287723269142296029732164734999572254216458382517227775122547493124836669839352358718865530494029007152136932351379059299473275815427868697994363871183412247135449864595462830021979050278784318265741321785717583306242623905965045845253567162817303330873214617642295417828352854174015365699800417350728596564303129623637932361023846297273497526148981428065890390929556855449197903909270748580879968058910161925064457713441913646643086758364791360,
    1594263281167784731453628708419663817119085907668081738187431459945827138317704183936463561567568512018684212878725159131994557920558589849376656890304104439390474529880715886890975513711105958747739797584812861277036791973259567006094039205802960681373937979008557760760657025373051121776784501453030060743039525601438418301696952884029202271001931296276262802477259876884299050709304118994424166664565460149469566091406981487980104954741465305199434012086674682763092986594164746089261885666481860706191131542928016166403162717875167179492596050285436067400337925559247131232176173219179100743192050001235001127245849395105792041446809119132385249016603835360221957167073587582336531651363089028243255483196134279860286318703782756234772337005611635098999950600945155546937967585591238615142339376775141968688695528786971377777506601686536944870097912384961922547771042362727792352602261283259992945767346681277611223581094822541595631868029883533266624318128626320651385239106905654982343155963570025559797131067968,
    1508978338982227754802961676455518009135381319279884683984172209441245606709126252043472328767227839759675741787903544904206578796687399084833780147543217528696274816629343501033041961761591561560481748658433484342893634890373870066236781126712141549893658294180138675696216867098324549853545652295874756910042194540376264379882503058701035102334282846328093847108021499964119268731495532374240855212511679806870591873681883438052165232994972574692783173299743856107593617421409682980442169772034555256923493892529386380312854208464942539931982801178149727053297767527745193829547839660600197442930591224503525641317812762226367948717104055192057489994541600994056533803193220147810106208595171624121861744650667972177768426630353244167722938182696259031351667849523114851103285061940906191286807320993544127459188461245912773801154298660456408968226316649722157427948015130724493636427688198539396093930993420508852376762358731861933483625859712394435441535423117998942819547232653627300803000518683781019887962374720,
    2241932468274817039567212799847083766714347831287835400135082607576547918765985888444597433559155047069596927423813939506366399331813583055963513101858175790114301146049080447977685577993453975806335596447708703534292145899876835952879510612678884166198630680159264164006846026819829148698863685975352562822613481345203730368629043779653133336137097756664092684169246320825375925527205722351488780528448926408004996633020965422488230570855563413006260050690435892329808938834440421275179747385745641852641047152618675819212637577844542795732556665313041589419416009575350351514056486021639914502521457217135613626787189245441881801846809214498414151153082715973380205523792530723999972772588339201829993308927130426043263352754478232973317428500293734584814184334767275963248149863612300805380933167791551486704018643140008696750807156801832565595373076745224952109330946123437064265999899632288079646617023719470885798789069657791695104770414894980930416559006175231686002069558271304292231029221867871499155527385664,
    2538621094137283645073244560348301592274856236927912470614738312839439307731304354081342240165493009072795876734664294285112993050109562844278966675577049108697040491959455809003239912040391795971856825784399703003394356126515519809477668747075883498067077743982280020782069275477506825638312344747165645683405419749984825488012150938199525051050149490621867256830844163386739135832611819605021783728455521130199815302718069164360015036123676713029270638478481441103737390244245723054361420235170065600277481632064118247591015889419875162067699363464289919886799002549783743931608958231380816742193655664834093107018196986542585078080590404574726580771160022505202888321386992703494633394805500866500361832237575445106197526683017892834952472207508829012847789597271827288389666481598023330310813200699702641669019370927145602576596651666355986986158629912421618520018556017774343153842925126525453557538324497423629980643163736931895487260839292830468840919675548747510575927910203925376073712796435694318865713366144,
    4398233284117371131984467286341389749795534353412594402400799362611432033594970153494084836728479885012637997727419450690754428282008632288963404794244207721301679446290307514707655495353947422508883939514892650948343723002427271371664306194842169515852472555940968142334462232384791170866340748318984245359344728909269705975051078676863781029734387634632556748211169233691144673835820522669719441155332455883193367103289854977862785417151198592078219571498635592536057737938218609065725588349119292070772022278117910713770313902073508643391170294119798590146755929638336910438823484247676962045835743342526116053746383335598304175159257214324455024512995396611687850543629257762902864956005244882028787443451980240708161931453682532019481543089468575490137648568060797365986651182946290479092248259587980615499739569244052860456901662514724486610282742566097172492423461124115948676886571760369114141118760097561198051941635298570094335224512382225402075436115535760100339370521853239955939619901589127278647083697280,
    0,
    2405030825385903006640042764552706274729898575216029618991681415888196812109087070977196372955379120802263978728580348540179979429988316194186136712721456659595822931330706690448972280373257803818309650620396298126645538516977506959631921782248427204336209846859007154817867781460367436951520014923057468222077520061665488425265138349646480163554097632375026789530011193154031410775222164067309146147632937582852913011987641792188087984194652692090427892191058467071812908529099130586591159143212917400367815633829213214537374916210528244353207366742764473386087776321766407031245862420969929078853861924083753352049769665100870120555550770504611585856810914020716914206856971309403428920591861163084505855073855103869484476199686448386222480896572734558224214251165100001110617568475815652246250299001567006603890790294620149325368969229024067614161825984260323114608905484916035179363202724151482711191926974785642565412970468008171527045669980400664079396383026542581697492953543475200,
    4575535125778692679147040397106117858289453649916528382397204356686575658750874763396879048596621349141210539901803746934253591134573623609982094015533238371210933618890483187088178297205894581448669890305330926406324830034952577201041775200373748369275047512516608125443071994897149861914853396672034503013465264171728418839354507112047327134751814265077997567775933754777899279004102798186023226056452453672020787300005068174002734589060132807145090634084941206643219920268787732943388173585848203590722097853514187935319417857753609124766580220418561867877670282679329302723683647629193502894880605735819812424736076116169254776708867168484603559382120366923774194869336155648898424298208426202431936908001651038352518540960551804877149345319577541140018402838009979157313702695958302636640744834977778771628627927883803666987839062338020666430554271733219338857454882379134002029290173156318455983538417512828739509521574845515223988228144405539817752478274518942970346554030272902638466729710960276246728327250496,
    28317128901153813949578786859913219225805744814735647236236170148863760885226759357111893755256790773387987655574072394149563903615077659169825603846157078062330676085115491830058518538866230680390738247682029863660364588920008443621284014436442799487386697186299109565577740850072498176171062740226059805853483150246788908376552544159455012094570764260910524779113360092627006945936196015096805773128798858672697759501831964909248822889243850034276264022932461924895626483887953845463719976150794782179536495772014635875728019136145770886738119843867420890792695774690456739460390418833197775378811122676212169234791485117546508208881815825850980405162048400316738076125203291577192307623666269761715732073680589472064247698516849890937380295517673528582115013932547241547742497970883939109115102087906126344134363613842478172260215570557356174363488098070439230580101246050784740707861658534379120991873769035014926357312581111388455239529961890856523592612143696658470786068428341304991661599128370497093760702023936⟩
def row6 : Row :=
  ⟨1332046321584059242839632599275974852840895690072769388461755328342532761036677981577500659270482662289279433580263406831373069753155414548686260455861003053333345575734708968806646836167110407804619464389550241870920994039432060137540361534488368346836339969257747690794570450419529801387602058769254322222926383407557117308877044008919876881446088202265588080522972547534825347264627984470159693096521604636538730877438378892634490578964504293798350937590952417756184924867766671580690934425923541217087656697804043533495822826776613180052298898243948639806240455670299162896757894059736347341938371818870433806909903096320423691578515707045194034647892642826373980464601267206005475543230288602809264343889992069456233748713903309628250625104841686044900186805688478392683207392077866991916032058101195293807917036119612754734100548788347134587905467312866569669182734907172543150557768482410067460463404932066225586016048036611299688010634883773113339946883038659937694337431230695815039331687473242513511696777792,
    1532782886670648512666802237367508814666957022298577194758831256189434943863076079977091978311282559335909818958258145566367151977696341408945547004736553756149402794401545727884606553388380611472531198887386200403072884545888411549680356770172625814653768961251130766777213086745043236424300813031373665089727651281307310801228619251739432667750743705325661174428128429624774202165724804218272655584972311676187561309040802709320917131472290898928040545757379288356572914029261448013254542438895762246559693576106654706041462091249767302267474801898098756834635219045834967962020717002356647844414501660417024389973129322586373149797187853144577864857225316098746813828418659342910600053441470146695220310504038489622244943136291390423371832150569456860139999008471120241277174986809389971187633524911443911189606586471925809132642516881334819138816237066737234210633469120649862135750319736343521086374924295918517296258256536777524355060518677068752454756933205693277875316404145389667476891196047918619563920409152,
    1619682920755444135226667821694368977525866482579317183816994762707336344590685500103039829499924924705828914583055455280545085604630848435115288842147353631066071360209275402557610756691186642333149094245949862863644845989641041767818219472725085442172477564978991795652859070911420636895157204869512572637480858700426870257213126400455910176869870841875162758971618236699786784654053358597056550311358711536032327708601371994923275278764834555910434571334444006478804077714637810367426030347276134223042092671244890641428071587627606802383400244057136238066411784032476467279913718649378895122299998881493050909409608740875794915277399648324480080773364896304261292733235714014976144555819717742091849896012022264077474640445851090502693404891337908225205008128021494963364004545696863401236696682276962729376519365999086127269263424072501379597967507705667230961718590623161067351888849136374715066350519105129497379843056185031606421888775416328583574568935181502186639088395807894509948918765449094556167909098048,
    1961961054807689978302008989938389865954662743296695958816827041767872494158393236173764164735674855530055458167484131178086481904143139547986769424117756944825014948691910870344007351800720279052771418680685788934467906261411143545269317261045762233371210205374391434464766819567637381659225598580164088525256476836398553305995426886866712900421285046407865717918994398284728425802720320685084792934189879911623104635995049415084889732893350829414658587376892162705657232904090190617317380995063619709253834269904047688438283910671079952436213844666317839571853061614037929522445715652342393841453641225926722049912483379571346080968768033694879589112931412318477306420457288966656034321579153079439232221800844044241130276110066045945821659681040225574723678945572777560721791568741016680967299202331159720897164189211570401678997402610568845986026061279787236719322531453552198645936191138842126890618683588807402498122969331572488734738887740610100692290976898985067190457892765097610552542236253560970646612034112,
    2474364128414443779204593744235106327062258170694781638927104356599372684369172908166252394933990954776272476829779983000731724671768809963815722739229140611217705215273463037910764149903743732309098748233010801075380945239812469598041803539127811985243476439200150993478979375481654535620065627551783684496297334769021258660751705349542483558086203007179949279412736399755129158231219619056673900356195320179988774833593276523403243585896332322436166752894680800290419183917770569611477059688440357146483080984177883084300500613246877760825005164359459365450309703217639370501846323292861189615076442342788502307587317049032018818120935561731538149499711621161063136808750228523522967078200689206039823385840318164590463148250664385234433576447796300283816260919736269909275286125248062330512688183873166694220950903952904000692740457951139883544893879053360952854328043079665174257417576175408677079699048686198783618365742629261046873969594477065530926538590971371381623530541544637165871982841890947294437096457344,
    3300690216397006802515481037777095798771028267038100787427373703492922008189718884655185399826737618448122140867339572489486951821008404425874522278689705309124089763007026411450109488430229276752287128461230048800492875332570850911955082874223748096167654359700946968110247731776103124137304698582668644625528129526256686312286072850506727175559766095504372638163369056562450786357284787948724658065991133038163758087764264113861350777809878490612110786952805072427454169073958046913405639392892759213441239693637541526488743106560189372720746058163562636259410560740671408954270390307681706238252480012105014130364933618216360190108932923882882039935780805536239356514130459038651149991940010536005411991056788289176223358210554222959350883593479816353745256964075534373368992581080381278014087611578578689467456722313984838007195250852546725613451409651429084519336052129809104399145343489371660150964501183288096117865798091381691916559539087242646577254083539462347066833157574413253408437992319972758462364812416,
    2069602871907517322711686231598107452668251765589994130963091792486534427305760567886244860621132310292192347548209127222930920282194039736959084620475634698186234162227145808890979148684505335592065341804529654454638174403571000378666123199183665514791335575874789598941980778369048867048865259847056215868678444557083241836401017916893662505565157677521569679445143218102768622051787843140984513452167770639910060943992761895227571937513494004268627198447717211876565977025677541456409726515475655622527282378333214683114861277403789217945916974638140551836349559997162807154469525157162781123322431719721018502434094435690744216554490027713081375595841288741527313344466214340428557969695668001931340049843084531536027035531229800133660321999125031564038523232480997047202877456347831537472012084441803347365944050504932262540005151503951082414539984052444910650497113026231308999230030037923350217218563148946698815349763457170579992462408835901417556238112653864209196302048514015232,
    9656773126858438903310333954016366718420785325399252816635211483461318526619360149054078628361624989902100271223983611754091879498984929034138892072967480375197450967870019486949812050102206713269256816262836114108057192221201345419944367665629943378987870333548133277203115661404285051432103981072027791850602542834409850833242379995119578160878587165141303548165195056909071838215810540649640613277087794338549895832287907274910790578539272268824954632170632863880991921805126539423537102303540509358671712189782332149743283770843501618589098965129912757771083754494091787928871275184002154203576905334450315487331906841046791694825058707861617452506638576000848255747486888363708491210270322900539690264637334356029701845641515844805362305592372145181054784757843431475270615393786783378211801522776496606273590609916101419895440938539677304390722097494496662052524809961079464680383213000287086873952664481548325694225650413660407296729774665049247180357228314535380536840357287034880,
    4516435474975604124455347391542336183346558162103360677433827223646556794687912955356144844049302346020795373139540045339548765825070521038967177450554887351498403818620593731837434428783683009409120352825387410620153519260551308030048498894745869828217345032544043317309396289073232772992913525042621233986919563785877379566000046191069325777060814879061476998958644266113800307078686732545598484325683023185080676242468429970791484146436922947392356111538298668136461911834525659495992636142828154846470075064971678803159881159824667978576099980119142383195311489311404875147237270579020511854018498661349141916155379487525420309130479954530524225809819379307003112866638133904753868243587748899435725563664570828356727298379368526567873969960988738838147359368089399683949298510686881450846062943779604050106508641098641833144087904230597833964616287228192811047933820922896003783542734453269576423600821946347356885417303094042436372133746967642197720431465438340358958387893015622659318328675820740451763150078528,
    28389074166597358711269221840644352771536162646624586964818620679201579415018984405207661118139595511493850510403184351867769486182634939408720864279151637826646887412383249204341906347206219787722724781302940114889123941359058227120836711533265968911572518052547429358802231650938847796953614760796141716559976313819172583425189089774906440450886283944837167851232251497923077536124619939199057299061695854805851617177759131897058603588226356317629355064265784069569548400864916220276795210183069153173809630303750390554084452925250561355021084241845032835932995166253727596151636646668570721591531806520887904817012396062860918172875739052042334157260945952586563558154383825819926433290704132838327918609226789287763528788548814918000224479368491835563720080373846709637315099171643545261297769471416388856316931858363174103705331126188266664568175242577854925753996411503166570476499457342445820888529060046724372289342176881899152773237596042375537267269642506550820079351525542788573767558951080917209182818339072⟩
def row7 : Row :=
  ⟨1358341404544651222123382198079483973031932329855676741743684336186073106188230273968947532274178042632825583180775856236655214478511931060451355875607664478873680052135369568180378852854406788392310402482454869782107598421226606558569225537083080455180611694667941100268285522357742488703458865732221256746639593623330785510753522456579679822760140705326204343599373518356922097770820314708393562898186129321782896566845607826698453463764858584916653213177969500802243644735974309982696636736866281140774722868436503465054247360611533938386081418702302742429547374139079390783036798355655153485248788656280024096208211796010091436080491978811791131173337213464178602272943667475878431571180193917753441625196290619777666099444741744121322774178051973798464626153900655659275125662354051066208899266275598196180457086278972561980749542659835476950945119573915438338592443298484390881567164140258268791588934777651055910007340625190676070853737456512821397561305843357107423907251039928907018649338388468081479444808256,
    1554322260747256929935273093215749089410316030961711260266282722493243402961973563603164671768058538856619326615465238433292899558882886011300522120537610791929001930128309014580654600830007787561864584764345813832982210884389413748691594834788488941253439698795829440783892431137384649262243261023802796166347836998813425979194501695354047894845726786823632816804282628663350289533779227771026540170723699532736160172854200206716490818480803722648205452892125194662222703131798158055615298632547800311108179162628307769412388916634558780163450049317735991139309077447324506901506485499170687601827464556624072923587211283489302666477441904613735096004639494656638278087829066280721897323926764696023068998991669766415551786571631074511636015092074241028450267955736276487734434121652281977921967419577008258467144057391282848113234308941441466360275564826331649063380605131602988203288783144019974642811437734138906627808472293045387520725776140976099125232854879098000779126811839161588566469220520300459981028672064,
    1563790339734385807653419168916305048057198419744066188688960558388513616792689568450377445483288334048644319489762216773720726396529861634410310632239191837634978748150272828802479279821402153447085489246712816239463046997970755723648418702403101390298694084258733360953918916315940138586351123018051005521816422957066254045320528205382266646145064199768856461734259923565357976851920795020371475917634518303450218404003069572050085822271156740891071717887450548020943869447533067065634323539127632847043812872530699088671609830056342395801867976842676802126896919808292278839894889304247085704153062288305708082144200779222776451774691018440655908568939514984040299589006039333157504129423811380969820217595969381268703850917268474928790989370943065605783622070219830655270035575564347315134198911928043124859212945625250521742800525579493560197099603557843927321503264249598500137921478467989800005802392622911460058375338314972639381955719757905736346383139269579965670642116380046180196107028146688060844369986112,
    1889958004323027554861692128947468592280958321866691589899716363920299425135787747399366420736006267076451069640525462220857288217574020185281137321566862996360925710742868617558314513992153275648621259736875331575553387381455073256378982837513164703873188317794307437368149351522909583323306003123724114443654229653659512295361964674995884876630342816337207337759790794197288563798189021283210923717302115156860627146354402059806191575317983727615028939647685156738474546520335872334717409439295676138196495980063409813871074475739308650122085828629851130926413436893912697873892524959412868190064030674457473158887297783810535549898190035864688747550192769234392488899495949550845202175218230710346594116111146015403652278495440407741730199710940849051656630165484581033087304421647430490403467224439102317646931130445186479877612195528986577027904346934468956576825254279505062879161513174171685716343249944480321200306702565095326936244472677898887384886746066684887031473321428425659471175996488153964983073325632,
    2128012148963402782762580019757345732969389205417677701005325864134911197899021567358634138104488866033837952766266874845683608456135008939759195520683703944709139415844680940236594988431791075579042450531744365745435523120787033091336772420427144297492555526808090530381085519025364018335384821264587983501024281461175300459615871464622932249945561438600715499100701950044503470832708343867590231690652937409471293517439520916093802584039829174410389254846598411774254057781741682709356574667575586898337353709573046363750174174806115404834938996478772961646646751012887171244224673765934436622416255928926479509678944511671960361798982814065603224670914691025491592470062752644618274207285403851290167361154373530813856214949989969168744860525676675460694262791798432823525560365199498038769696595759050834887818774733518890617948507238953745412610477273641918805537723700684788687946712262886592872659216599979606098550493902647517426837561907335446098600433016807557292667781587181499083087360076262303941603001472,
    2887252693460416397548098459912092360120096599428844656117389755252406667273379343484410489119460211034648785583016234095310230202278600468884300411121245004467950125432719012959861598211675754570626987137245680670247077996249777184650998962820258936696318561630357700505608972444825534617951558495155266271093475746331574170146517440972275734184270814913487513427327968214217632820107987116034894466263354688203375864407861462298178906172134665634171589347725536791490218832273712694927403510744308228629743136764212382804338974699438021102960268860719687664026925011593877329471117481982791581406749454016421877230607132449577807406959972330674545019340079159734921666499322991722573889977829766459163427719197031799702130024907541102320280437632752373061385569869023684620412003085082258523635499471436806430182859868152446394405729415936138801027199132096093074214908946020308272548207979736158868284713273561493002841352790397493484998387945175920048597154261988812829416452852158066504610694728929521355873748096,
    8735750253076083083208727887882278019791849488922284749049860371411700654191352521084403547309903154041873143903755783357870718612195165367719406571580170149348290938246238923280680224277991412386235913517290565882332253316200831155009359075296868663707880706675182788922902337847605142597417256327573820396216040231264686683606347634866788122808499374341247799926075076707430938889972618349656385906282373995979263974353716507609769348382787835292947856656192035308350423430434687382673625194806840793642302763732436638805361998533977716551424890005496388706049139197919955086094239531174003652924393783962684332527221736243340962986529666771936327223854399435158697215138447614803366103091125849215015816180241338541791308402709462084476255895270689775406403330589060502896851067639320146776906942767647837224494843431174558767897061559416017784758927258583413825344180439820338304492431377828105109678770506185381211555900874008938303749252435708850334424930365811203988669287769309184,
    16042813733655676066476031130019576908043240502010780379324328736299490974675385797594529273493606341204742559306380523277399798799391812713609695963565366719424625015525941136755152912116511695429182711305160877455224138740367882322793550604526313027426683427445963404922383810277881777576188574449831152050410382153873287847324714600679745262030055868567917517465232056156401095673184376628577814744697945934590391890016912279926851464668624821184429549061146806561016020212734171748048056428223955052118420340406085012168256414166062104383735223424468383570600767964333579190185156059067659898384682206290354183276523439588171103941144056272315897827355786306411002498782800233571885582648857539428338139043903125843327979594272358764448521887811583920978840903514813610137740581371482904500722938393758288281883856818795916775824750753623909763300752825197658906775804546319137409259128212455563696592323073156552888840627464088291529180563812704178051131709134490357588215278480654336,
    4699874088003621349455376182683835894921961477656146355293526606083432166437344941164623955245279599919155627749463495241688966742170989094113979207543446095745387717810375146396072228593869301142926106261571598798733284160731120522071352601763609319051722408406239798894476316427731327138456796740631071732815399300642360590766007725277293871319006632169459410158969395569861293528855912634330472965688219856653231285937209831311237215947040386120504696876016849163029649272393824757527206609224323714247978812590639737569892715545231144531166846121010963995847978489970915538398676570782125087640295493930255549337791639375326402657608746878647648669258639465628754169479567512641919597745093027806614427927217530611431888625747743359846446031051623281113834124971127476296119461815260095546319784637646149601666445256810626962357690947604455003215826829851979666634185743031680525572715345927423050555127560329683877421070010677239555427942446920327547145270138443145192765566589125313330271664393500652517299536448,
    29997301202951226404581806906657081584495359244680650328187530653939907983780930399521855002400081982268540841879994962609065807983157194704091880202167945271320932589364068468696831318961026955008181920105919779976694227698067183636394731078600595989766656326863849366356563223619221790180086148412060432914669138032950044792190239938369524573063316762631013863068078834450051283549653148960314628611408361306632215831842356131791815370939859934945013513716098275764858361651184428449582878048222943908770892515970412212685132759613489061437656483132618977385277049879181314285945876187794682417585095062147923926551609065263739768441237490489074162415900932226978022655863535420066362109057609476455696810727378124196488680360805742389275300736020324904550724184810884308437010085094674912474379048412394515189840472832500581447326554086976047329780280255332427605935240106051248066393627086134488904463945849423402807710837248191302692731819898794687843174831579620094958807344624877638801670138380206970001852008704⟩
def row8 : Row :=
  ⟨1376523467732323491723715812546522092545044323916489652432087333384263481628689213283614750269113626414397649946240116255188907204457808322751186389228484810471564885521280119760568232674611267727183541785900515188130466220236195221295342645995079528548768350459954709455712995233754632102896286507949527545142771771391873905572769949311227450666496978696064607699797720384222123647945808349724926751750236276499304872767989726941802969257251835680212169906249008572888905864763627432594234992635689485604515841304109652908537109230507390594990539545166085268687135621412738467292685429530573359092436723888362585758372200528195275009006942464238988912439773060806787482824183472737744157168857262617275997705510473998998100669406148881972233450976201416726708449213545554167770720448571939561193899937181864455428356306347716915110418385436156032353240400119798838927843076855764325918547191842611092549222485672720057902053269997949256385591177457095851478872451078119339810049017265085048350833527361299873688142400,
    1567633044968710314020564204266889465535884250795982604561334564418978450068807662177820869011479143506700554775096604988708013486698277124301838709265243064467476384493094980364728197357024748419422790284391538199786666855397667154874370220252293602141133816826286104159078682384006748999274298909491884858056962677183109980952560281813437457530802582063418582326671018911370224623566691605317737593976250558612433936346593077627487381136080429934807404523735876377041069087933234161836934019160460569604610517181930888455899374877991998326220000429068526244797588159874612346016231001796629704007797905808572281435827345045095008354457640605350356602731353585773703946915020201045496418354580573410931145806840958801845528152446518813171889169023224095773204288592209921047786522763295491737766752321128325135354829202451814310683938823594877412453599483680943166322477332392854141140943703820324197324291895193957500998034467258361449690379483309450326862138030809497220674758044254558868131133030438112254516740672,
    1494821003908400626081901020017646584122964241810396043062057171097957495305088616041797586998755061817240160099601640578564644256469677466312579869651567834300167494026201072033331549793920258079770376296849637884281011881904272690032490198977716723717454457074458820743173505365735433145865787485810716345756605063656491531151864071935808249868831939699368341950154667655461902665904118037510422297226697992693836200019323172286702298559715123181506509572783775022133187941104548833431861506322617103243586791782226279187499483952984732561657919513571887889901237032384916415894317296123069928074277466942802406452085942523731720417070364640831991583013674203478315069021247366541056379357646349691867564697040326810703493570652307783562544617195410517675242856290671025275965666561286455050882573762774610847292197755867608762242062639534402275192450582531075130144220220567181387014505254201422103437687302213892264874504479705172560470986451492972620439040049193411424028553946086880776949641216564735814782632512,
    1804736625682700006135895165271695543458351616030959811047209777935269597506750976908249746229200824139915983523800342276953064860595832061345390392667680806422439921764571791302294552436671482141037240924889010224731920240609147598819539698797885386429640203837344234677849213738919593000309730987671079247181272070413972428407416303866314638021779233343636942255585453942414829721889786281717763304351748613327727944891260392571615105245532565563279922090882140912008236469594660698145858456443869424135829929179381498575255753502533933223716402167790470921817640219071521409693240342236854710191574274480019220656095380662772221741624322690057992058233163918625154561594842313056978886616933529469361893213868944983448857447203486683466412058720442538518804750129380125110314030950806425449478349454045008501512154218038383778657362491433579168521742949566371063340454524836959508514023790418984363169644056920558781722608409644378990438230552567020215138276124625530813214468053534391155119475054944366880185336384,
    1763085168045089416821035895243985662255486383674170970056598921554797529686788319874579695088354439064565478908416874912556562889579307420722264825104591451915293954335549534854623414714511158942868838306991068497008488262794516322850827381510354290787094157661275017232930183347059775640251711455838214569659921753743980498410475239251967036095137135572429328556874009719031407149076292017672883254452417515363680096670237812084584790004722735589362382990030503825927768844899877485603646313067079980153869541389685084233622954191718818262000087736862253515973790523043442680065830775089028211967436970881225404314217551115934645194033939895706972833423200999286739406759204887975155382007264757875915452204964927921178256253811337274872930262403465361147771212711324890417057844961982060467437701548135074744984206280860204779837520443169774720460841203761089792815315452246463310736932057414829134947841317118902788989356765285197546669865516701507743515221774927064358263934078182641774066111868634486523763262592,
    2455893140021183200854850728614078569395705138436310172785915488779255479353948954037072737453837140404764597222915204201221139567115262950693508287292929682935860411325289536766316433596808421619773805764537434655279377530477913114524877265662906128196235229801446654378138688780272849967547248883432422676810616070042387324075978626111317464845895879717817638136923446516259116303620767110864478337522959546103799827681551290326146221099935623396132736306821949901736408625000159876375132403000974358278128172078930879512506476194420330454458168586385401380169211718926048464260152796962979597083178227842516869417394256035218053600896050480916814531246000780684418510654753399614310689231329806613474292731386704543912146464029687112920130446829014111307733297537785366901518588562431698120695404800428120948117818458728991349389407487037870831046197159384219333637860398614165742476197959780389063354091839739828354642752826428938970725403067094826808462186204069275744542352794641519441144442514988728682591192192,
    14512346202498806053092114302987765278962658494358523653777052228915171887327483353397850313975920959220975847262695002920549558060684463903335188221950596543686679651127349804158299710255937267671080824766316421961985928573870353708967432433830301004506561291691925311315162050576157735211042372989772382886738670827899410391198447333690154973871778849075648763818598094757032024446277268492462117314465055495209481301888066931412072442368682680446733146036516908970874334918583568071655975049568007857901036162687443311065837149821506390069627463493303267284515373018588430285146090796243308365688110906366973429996391016465300486511646637977584449226314991164311723417154697551039010602521500006565100205370824263080711990251612148516184911906502038448051565335768082497982920291548995697624746705664451781334922694012357426603162356506411141459568478179140991120969791727654146288599311807191129634070673470763772795053644225250278752121387501294700112024697718903715151818246269698048,
    21536932521995166213168609792976083684969048834761297291197698543045267401039765478250821178826608730618351149257714232911462502983822134793726375036578091775093881894804509879282238064754484010935761867380485600475150803515057757129832611588150021075203555347204633608569848923534228059854309914984751425703204241402552577539115392591294444405028285453076739140770954972580966134104926920890179957888141207653429727273793017467606502101860406250827487704962897929109995385992522144695957849516899795987745628342854024428025297052929455042029914381252086428019444015956519831661958304514238055276124866129847747852921924473777206594807833487397164605970121801234889681203508464881518842281944211885265873895127555320517608377096810053093053624646202107697672452285653276627079718164865484944472149436452561655695515072652107250468947391634689989802942790416352954733928927860139911147735267651655170706490023363789689168142936861649703294482255213874811089398582129378185842664003195633664,
    4862105590941456712248754929298729589769477072621060742662451885643600003575611303479912920610387628653979046510563882571189577140626997048129528056904272083560863782052750434040200707242428719795128106648654033492335976412614261128758921733032401831946064733657632822346118587606824501383079356367756110302754702111975366714798761244955972679993120395735920778193672973666855753415262946531082948583371352229425106868682812979084104395733982765792572854620334654147945833868341086307795171481623298224769614438340796895575543631062950774667383585735988606419021499643644391338529155956821627980940161831587307452525038553254049697759028111797858205747376198628115015719239514972307249727052933906121542201987151716468513790396196517674956713660268149623799584053909947837215180459827620357798402927711698944125455638205664041993090585509035922062585605620091761904366416989646013896463139018730034475249209045740812011178760050099606303168507165206058034803385961950248249978657431407766242243223555060156216204280384,
    31503494302951582863040461955985938105880272773706400713451043614409182567167123148398720394597703816089554375122840890637265930689726601092370591829961166245645701393172821742022583609168699851312619772621673315164094645572510497072556219308969117919284901396493834736264287325343559918869657645983348959359262801308009247018307244933287598195088955146382544630072111043453817808144618443322011247464088456958612148374264186679508406153806578888394871278493056906258581822217261706737578462409411429311084582006622585892086806173970732234429352638188157727998564161109176309627013024412477688928364375955149276551538740143750493975481250311108702307485417948004425678023014843235231872658647082214537364739380504681613738504746903084644493859441156134802512101875679475481133599662044395852526896869081799174543490682291953844305778149773650879771306834378787840619095456958853100911215865134973196499062727654722909684238131936099206861347693455108882255699834984985183604025162811294914032808868126107143590412880128⟩
def row9 : Row :=
  ⟨1387395723218611549963991577878498171527377574344030687052499615679098651109294709649590559457784823041067099362443824305440847355719125086018093275794699485432823156976927079842803328975918295528120744167733998313415120540999009446473488792363099311334397744210350331990691579579199491638404352084388939095582435237630143547228318165943219643487924556520166508105419629145246699303931531093141289664957006261981136829381694940393371944857665321097668127367722754242520298687084166037738942381068063543987963193288617061190991441371427973068488162998246531565021930414302937476456232888053983253983963116425183184708129343770909205419559272199972721613484871553759042452977844155211526560659961625717163632346440129327569166118522265777633212421240422767663943002481933927615318918161564113581180759858387157393463009010950966372630646835141563252477321140183018284217043699073894725902651673613969712833943142348553070848263246646478664033820796100546455203816183139060000909920660525835223984898660720231225582633536,
    1573538676170935344858492363802949706090411211878803258680281898238502631804870773349672850863098868994517410271223357072554774108096193312953539678855882188886354527376048117105218446432197342973436004629564179552185603288511610894549449710449274678705177445869947640688510540769611515767277415878735664113780847533870359140689332588761491893869976851808467392494283841998684994201006790139503458678467637953148703790983562264333362187076168157682599636734790019538600978239780775421994785113844029969779019496314884429561296890798688170407018334287354665678049886317830297289763233208395605755405753476407912377384820180100076335467217487089176266374775948393009089109336789936039818243926310055108848770038350167689231035735653470168296939362560021130570813822164624451374642573206515434815135861135809913724735383726550958531576295019170916787463020790853229163135064709610444789083610385450455546289111530891335524196033321709630950268414187596401291528264022409853985577014624398646359693655335080181110949233216,
    1415144099963312722257270464441396380576218868492850232837724306574613779162150094061993322294047702376219357637238702843058949922103625419924359371881314364318386095425568049222669244613873393653959796100188297546396697340221547215927691317303645231924613779039365329871410224626484704740226622241619479186623725006303463955676729700810704792356844873415704896472903224039094861785029268122208450599181928903958547124149925973789322551378165369936297378256375543202837106399678993108151826427188178392199823848821996346082614355508853016162015585026185292724890068312221151904805395843339680834599048058014573261276436794577264536737814657845999164762844776110817934635464532870368196385457177033012895373154374529302374919154419929420522614184997450464907568359338406343803725783499778929567297242716826063771177036863870960362429009901719291845734265684991920318587244254829226678809199351122298600807938667989957783896082579333762844808943746667539900076858373152759246312080046007336491659722011053643082893312576,
    1708764340142431488844574384745612085365701279058981068272609486367024875581671828973810059863181744369256284307495949687610452661346712335620170891530826702380775614283649428595831744031728764858878180031294163215228829766777258706967373891174028799473762569585334842236785219715303649914772802516214665825730455376147221982492688181376542546384849839499404008889651313612945582469367000448727679352381678615955514609593169591173783078585182263634626078279618728891873951051644754696546446172771322349364187307956226322042751127726918406992380090959803065815547190552628613513659715428624613289408754488416416205934432742592963850420433727209969213006554152651150214276104267192050885159992600954676135909827916989593675858467807308578265902070683732921946073921861698433207484933406709475233531084406963076113093585675859121794712880212012106333554873281682074287112582726586956816217050873367616832431974515651051468715027484891381508909975131773286605255029943689818624029484904176744096082097750395776441741427264,
    1387950459613341102762857628045017728592118230635625964451750829673827777632172884813221301767368737054375558726284564217761699450145222926416250653463403300199819916307872722367856137946866047107537684873616158954944692078179222633762328037465377981074373440693754113138585823362525527359194439636705519967736755018792699023034047177244058261085105389560431000599784974584194788473143419883032741128912748249797552938544990149388566222948418488878985013988849452824743068078922121408866523571538971830044780826936108172843464275421566340588085165800079921684051023660466740588296235200117233360473607252072173806437591282288240803184380041494985251521193679591576491413984374359994354469659022372415160534908723896919078880090672634421934790918450618457918688729576264380461281647814285521357400937703034411846530723773681097470064306122747724111689678913530978531574223833828012509136539686201938046962301798746210490885895522389581057571800654633782291741560300113300266379677628113520849912606263867056740903060608,
    2015423774849750629292724579006491726908034823899123643037586011376460543789208734865000515166196229218465237327618551267072108917442532706404209310529701807266120448802733351587005139444012826692589514544887638719781632957403581851894633483413838545906208450518355823680361797209387029929693150286920676724768625057241355506312883454097433963603112774427483380653337186988210901925697717809505068055632544270463783447544292371630182132037945754166656779196477754970208058596318824683038781211410106583885566215498495896594881904827710576365956727450093279935745925968370720238172602333901638250258739519117952404282932631277445949805114126749160627372453906798186532428963580079031098064971039866077115429491279111168128498522509119701174549922986630592186703060263002337228038932708616958844124792604019162377403992872301412629497893465810374839492039418752079266712592751162220737117581703759316605809202227455119831529044391070616435802282601834298864145102320869933253977573079413155045166619256705323194587710592,
    19481697840310576044128131701624128867209721709635823488815087758562674589260479213715069348849061247825720469755283129302251535876691254974591541179784219835419865385874472462143145118927705188985916601426516008817508813223324347922388550211289416672140930410900161656617985505375874943679726670086591110402827518496785426717718991270454773001577461580970723070955452761454735622376799995605791650707120781629253465385550416768226119044798355660670818483611818731426398238170187515407116233944599665603364591898709266303007899395191881868485440374051347683651087156245494643375878633334237702538808020787656509469073237304925730654636950540860411008461127874132849289226707173159678683872441314062231505722568763418411825115388516969572951629523092992091419226102678861071922899591337660554338803350764459861030131036876152703453342473244859233129721680654094527287482700486085356020539644010597865738524070059089624820886770225773971210763682526150464975878925501479977816776089991643136,
    26222895311526817140298641257975766750685012098135583234360307897061728746992477553449559652452800556027426425598675401165708246984052743830941477525957455177490916909318563216698789863255204375109246858673420598509715955339410429029632809514663685221914547867171909459557438860066644049937091830944844154954641619649161072856496658436852045035448465642118343649857199829089132535778675554948664011755197910922328146732494700672622313196705899609061660758228621050312826975185299263467530316179908594277284115158625857793126268464730884121857876276693254078310454190240341181234270656045813081460286878194426823735838364999273287078219912446571252171517394462628673780139649484477340106967452815128220684340304585787263888085030564557388496082989900465127970206017752774046984358433196597664209623654357100786060642515874060325948279255759358763361956469771917757452016881280841287530489376225503435663882427313433824311855908298005215299194726108060468893950470374437202072880107084578816,
    5003849407551025101621513040254479716639084455470884358958578632350729891973698014799794815875384058086653818056243965761767883892962525534009892389058619362019706458258660333491605201958869988322810891451796115750435668053079602187829644234045058846497200571889420169885397550114006446895873536664006869303252411742192645863794682180374194469003702400694870860557598886892637577776356332153753592595627842495471748759301363388653744466648891742748574838708356309657814144954463370374229518447625058262850223001307646039572740721150032710006838340508955261576598293043317489268212582911414848829117207730277781049949808565986235665307864078236649002453580778194322611164505128265463559390701985837742687349449209924452746689867706046577978304634062936624117863863074334669569912354956782290564312496113896802320555440064409511093184508417001693278341596644803118314012612303262974716346939815668753835934775553605291851810768299381051799045013916887004652326499347591918864307424775551060138373662884638693138956763712,
    32906434202230845423722679315771267671519645417411987693216307916374030781971176614372126954753835433474393209077641056297392584774505693471207143108689331125897011962301853601225966893866097896006206166301118454203707618600230193273917425765407520509551599341735159256012520775395093367167708008190939669613851030013934539771503955255775755855562816704061221140055177159869650198618679984350175433653536598214683903236385278481833992301353412930918827164204819489710147852907717792894070658580587940787342212153638965747147139096068504898107531891866651261943762745722555400153850777153356344263009920172707763666096205598055607562135775513082073881801473535836110739293178959333857327555470680330967588415047913513131621603609356107790278174981095510005398139579644991722572543914347345488624199996864790148357031413406475008894470295852526044313011066238196176134179334827631438967893053016252846411384422710424917590114657800879024076708498885633756422779393327029292124545857355557199572825493249519501413514545408⟩
def row10 : Row :=
  ⟨1408940875799331733407450621750676279638627828046644732387791153934915341647943270893866785674434128277401068978157266383591232520448452503165985494044157038188093690245707201085029846093569403844335157278347819918710856795666868744316000026803376893508465604700818041071097351564178127047893436087532350205491289918188644837714931604216931613673710193199788680423438997644661778178958045478044103421558643062553868989594157272170444131875922386564948590217352667569904303310456403655361054133909621223731639206692832672559508025220120530007747018104798534813415680337611001630006503784692833615310768697491024083715275988409017464797554457171326137676235291993921587911378175645422874836642183423596676495935831008236580732428833322192659390864419135697993308948353140612746586627893309666299326564520617553244983576086299008187451904495636140518224837266541519561055690331112420944115621025231387898982286847827488152976513987470556656457997694440480935927860528041092265528298756822075537149731169712579560321532480,
    1554302035982865748322814435127929867584835901235236771750318042053968595831789383367116703942038112084374068555376105737403201058729341410938456295311839767604554226748859138135673654959068722508207997080896730442724822254481948290607536980902670328137750723174212057019642671628603394687707721413610140110646294031461458167423991844004841842141763513380084730450232752948765428373398615494589500975178854828299028402792760007167320984368169904881129601130010637555310593324219386466597521883616211925575915733843756517268514452299377231407285555927578314955084467301408426206420746790535645538617890611096138825251586459873759842437978201039751704966432091949998067936094924169701579215972112002263415059991430909640246820491417905573585193511261368273466295092097292343835002390735302979022683126245795543308190746056714804986333271056977794167271676189801693906178630782414262251722067485528236026162275054944421585669091660058704474510958833381339975054011783054593949337235869936131207338607314042049984283492928,
    1362163885014584546878068575272624273873717585856275877174742527470685481446302985152749531095090966011321987090550903231646311048994717234514348050125816477774780531699599211819657264187986804347886267217746146154898154289358630016589191470698434475458452351049807184723922160543565669383914618093616891363898728059159133979458021801996276091852127906764874731629385184497980501197126229701592730167714783829077575095114835459235479559200826406836143198892474806222027215578034671874474552623569160745834184520138482135069535453918239562661611601032682732106056798591163651550637923993619986919721460324044868934909871994644592720477917924507291580145613224417688588285955107874068921182856371191081779549799466697668855009854307380362341977964340072748722444886801835095818407465587384562614406703014834960858714100909415404434976235846989193419113232880058416285743592253555450814624281137875516227005128920946251573166822218050489705825572300877236080826402535749596876233077758717520857874253501633184540323168832,
    1585390388104167769759265999003175958998879585880520088598375538826956404888527265844420446811549662251473957932685371473374909990124607956561069288872947928814140054970348097359986101934348139394572713656403647754820708701811710038895098067676303409423024825406877211918069209778881924914804113334087901922484878439346844892260638371666126957932594052554372318126321046437653205439922279400070419953905057158273851732650001758849433856661944133019791968539409276498880057048775443861270938143912802095795250833418096573788478660465611286194946688790178232754989522456601270808483465872704833624990499745557283938871901252674080563905993347774908448393676296431330068385813037427470879489258937949182920377990571759726698583308645655774049172756533698054862325748602522489207064567054140675066881880774092397542303654851173504100826411502945657670084923393857223263690193225256160401757275459484629182303086507569682301385972435376344363929701046638020043500560384755946562187195037777520013822239303291535006857380416,
    1099117710090820612153267484825417716327145052344545794391325557130635450283766862515041923749075908385362534513026591484768411415624249685010667906845893452616417403909695698899160669166770517939840852818829583927863982449519754410791126835358100013922202899821278449939485928057730729256884734641914794743462357543855853744363368246497615101394460344110921210560790625638622010009218896819085127979052985682445867274683422303882576248681820354174938356752881873357481142966331171862400574407933653679906777735162442614374978263560312127630956043711401909131150314655104939274141706305847912300629785600557689621500310955751052064287040849122690288619513544387839897563724100245804765560699900345682082610514435450278064073317757534280896714085874876119230719491975865592061763955271850344137586324823854164629493313889715284928506282978614299360287309322795576733792838393041964900513492108945834094305695463786268760424601482552671019978621997855997857688715325301911175998511336301138434861825994589694222181237888,
    1554926114426936495221538741570817223518668025768049391829806041219261613998500827997877532279184030371447061981636589331512137864454391297784078163115972929227036015200390438232312854020554477329626147185551558592357205184999314609717630624304488755483088150688419967381818026304822279047845996134273593059494933172464038507676332983136602673574785618858584007416214641391404414353452193359380031493007053316843670025494562745368883765457872043970331334429960563709775108337639949796659651318474780213091604214703611615590765170848448791845790171450045083174848662144255883964169474983334694060229683233432859826795556720421411913851542899056804581824447869397430151003657329112488258821406066916948352524118974135194321233856429656568422881331974969198151614654807216166536294878820706780436172766781336785126521714460183740412070492803747092396575400604486134051098843573121669794610622328044354918623821280616805108194461005489652953894351235442125854467305741175408243198890455064790759847627234975187149539673216,
    23958191379485644304538824188009850676791514580045122712773933381679032789060733424839615010249996095677734270829876359390996236634376710285962744210818290636562641008158600413207325472720859323816985055446311411151703199721801071376758486443834392936187674418959050288541529459547284860102925099075978121724505787187151214445794374558311549036706440302228216073156778978183117999433522456648314768479075080144915992011183760102819968390118237418247411281945844508658638571159914665928660199953800806613938518699307255836352954483737613082724853018323896090043239283718213244775522656833272148395010418251902953369363841940257453321938778042479100712762585192234214920305316935087551301162652272869693406362870218089606530618147275280395604672699696371700603410666337231359054539293886740141301410825417065695171865778059405276465276015015448943089406390662372123091691752419214970370386061357038608077370811710884347820615934196348756342824897493612522864251089347684398303695764386217984,
    29148937136189268990848711179119292048114926760449587306218314595570011500793793994905167012222637622226232412880632966379027746749389704050394291042540192372274693172262944000952833667050641621583389564311460595064494697932082517368070815701809508627438800626571851189369739954547849539530406636667078606474502635224412836234479962542395405594706845198280209070805183272684280652630404149008841175658876819380787118398042121665492603046407587979876818647322388422904806540638662825876572239397103057559366183741060347265375477731629809895052240180944037900161546304095224747587054193014294722089551431935180548037709742840345288835051083442370774837391434452140125835412061657440988369686202309656536249105938564740549344126225928341454687640225659471992992742467650183126425035034285210560180546857404693385133825007775037383134323683113857688504602450537635658069861835782633674409739797711140168314343483335812529429688213247839508836959144943805853029485384474523587632572936705015808,
    5040912732923893347995751019977873496578334352513486573403294129817871401232015894653191972985446987548576872421435872950631044710854234739586213000996300734797689364077292708422861933450472764409861296799652883718736569734270820169213970792443363982676055270639097876390118658530561192965202811923561116896350512757455068784583504265128706788116360497065457979853300043033771230722557477165827893457921041570487389933451967469685325870962476789853737240112951332976009365513709306748976302009098496983278935932698613984397412663187421166728494765224852933829844974544522458429011194647950531830527121276289956369586425956910093065762903747690665270854391161515996102470087132381723618131641878705384035658108778582758800753124734457172652860303489724681993183951937766340845738808545906494990298951243413821088156325284807605478543554449582077292572711279937251271870717791487940838884293187130860102003414586946389972716691240710341239311492776640043327338087049270216855232594762889266341798689690294909485194363456,
    33540812829880815529363430954247752649071715717280355273076872563984963246710008257851860611627976408062590428604104684862704002369444696992236738283862979142485406764149635347218708479759184084958505517840749092844693513413638351194700618606056169320999437210714724001811368971215046535084229180545303008860570495840141419643456719571665830353579713330375541725508297583325389752358369726142217421179751506695228481609339573798904370287030372397755690719427698805024742025822930900841539957613153516638743394405183359655868392336515216083200884333216515106973497719250151697849546368705991585426694515017378130277475853022622730524501150016902984780143470719106355463052362416509781611719213406544435695434872706745526229173069396766962402508108735071073603069280525389275981428454650214870974888128167797738623146069592622304355278265031032949004634086244126627204806071591118781369174666565690731045488361994785207572496355339614486164947610805417786533768092243467839961502895975987667099054859554219803667219679488⟩
def row11 : Row :=
  ⟨1408178113256578598309009802708805075505528170783695600803243516925992363643890136727802170222785700622786997939127239985857552362768619293303299848481756077822173169924393849944019704890535979595644207486657308241800490666405801699142002383237876653363815272053388570184497519430464184625050362417355608687907449938904066108867343571738737256353882225022137915503699423303101457726798030336230612156233498359885163550283485479272808151972926213209369091581336776977745313453109806587851326068997944209840221967497105090726776623545457834350830517611900832732849284792644775109342146635590947346513590654135643011820184255683490037124929862651992248243434610962639092354998657097000438575927214930310644299395389166634365105754183583122616444392893224452736238482514732396417653208265960860747051737454046485906564892950951693941909065514469072587070844527275020501638320025065655879327029296270471597002060104530200883254716371214441745408688406195908101566505411157136873559589675098897945274077402775669058730672704,
    1550303311137523555230988323188204022007106710082992658126301428706906915090463986156541904056884629238518005982129381488986244585612481647632598078742110134458471543335934622447099926490073378709327457765978423611681725328944907162076615816369229216701892494892641304271609018698093626336588373149846192442250916080783328552805538789226071092266834328790047076023496152880999547956994172273818779256244928656306171643485062702986138380245704845644234433379881796972714342473183362057184663707367458323782777467975349390609456130764900707603315694786383073018307339397740222427659585025160565420572438061396565176970929613554121711983729266580999642805145121875454011377437798483477183984028567670956862567182824103710733659625921154094250496536223973293860113812180190241181625517424672242540575239743349559353762532375473811238134513938907742264953835257571702113044233690926214657526667873230680530261024690641221177135589548741137817928518778058864840727230739297240901906212953700795854363794779850653797377327680,
    1285948305032444581871362645493284453771338439024523669697855510714135250484158715322182527297735190879204431465697927464041692470205490996689192410687208001391114277492018440476475641811212029529052807491900553271113850936568110102764745722751288028764483522585467722008123414870191591513659547415055080553823004982214122584325979026289265543110489557730823765345250632900986358537364672927918533479785659621347804163302352007298408381592362123643476662936607504679110096813699911834924386118924028822918196918563548640945300323673496313067594648345428922919156448050782380067887603117518742581201511845165448400161585480571531471704190716026830661177529381005705521907286410614664017515473966679400796514903889970305909742839959981072074488929846994473648541103428442168235859918709957243427602570338879248873234771319610695974414695696609288608513428786994978843695622441821489729595928006418224389334253583884637974002155227001952030114221000284686714277137435428960244356900102933688467214821387112882156619121216,
    1498834175014022234611197602008349359963699961171459399070094819131653897883737935866250244654545220414294380276934724841439772394270635896884304706029100279614396795554066873724799049286870066531625481811159376849494865762243806169342584429629293662160063944739772130200228777559044949787565392915972640902309177994854910214439064292776933623534433099928488654178457134032953144043484743874371851581015141531925971906447804762387987019233949770647903305566554983232426904924423286794612665485052349892258761530594892479455699922731828748896892528697631413552621768345935724636871156689477897134736084496895854262675580423156231137979736538384709590632759817112504941176867893793545029268057661665701174150578566267478567378788056547753528716724766806781026305689934596435898226217897668757780200736966339854066074865199956242661272973933890429616590307169107124621126991578477386906285200995642205141550728936436282519687253734260499373126800066673376977488368891571710031888220925260496293612364170810413444357898816,
    793556191164737044952873014928866238883172647277843883527348552670450585466551900607779838319511031024314077899992881597001883886169581141429576052934616524351458708255986326185207008840511947166091586241218020358879795548185014025955494654488078494115222922147343637744466631817119295030155838801230000101515910471361945020696518030743234366427827163906773977637292663718795414312937475903000765830190436664347181883635699914468399258817877248210111941771073802125720208474848446427976108459141341856219598445958790022547397237138576062344072941738473891835093918857901108748354920461169468133743915697757889626462627887843694448979038345367157694421574877203592713577303171391220177300134592056940728774151645270429784072359344804689192135379222425642866702947371459539445046217626249018957442148432668351348615315832408098240020173671109105334117995659142131690343593895507002044481926280125226748695556457039515075400217627397784128137728968555175859747923666119553313593950897700771223582852004129658223334425728,
    1209394682559766295627847716363566856733370007020181477118443715080119394663137659834843725754441713927080654507939060330691594996812242311294552997898643049744323944252642522692942710610346699843611088243881874956871137368265093363017210504520341540543990141590889343780170045154901301475794370395403583061853954077663707128598938098953405273741914673267337917110808280486849425242753525313005524932722810354296951319833464831391268200862455815243677376840855611827359772585260920624400521254326112964481112266605816902190091366081528587274822613262132363390606139608271819023528059439753589024520790255667133656876788190076727086235554800056198562243180585217642048355734780655468950745087105361417234269011316867088489334473796853858469820131719221819555127545570108467495751741586378162208076279257235632403669192181426475747637947761973829983598193157074559559989663620395617404667649380423570707064594264325316807328692916366808653344907316315872593005031690821520617419596625813441851058035902578797535895127168,
    26898382589443770610988459485842480599461690055811497057447236098221653986578476337614997232684074057992859870299046800650314065922364701084389692997219616537698550391608763065480993252934565319766207429688456241120782753064201548990410096659054702918744261513773416503207042573728363322638426254544841023550207076875881767960381209727989296772666245027174941393943089098699323950817181091643414084751295028478767638888992761156575307188081753313619522711936808707410191501412509319507794577602345787135616382770231900497794589853252000341268861266142476615695298828311729796206822090611751307333336310861899202255019834044105181198660404742584245657564789588639374908295125021695900830453368251736618171860449134962229384081279947303157381587366658869407302838626916248608327375403945309314346959428252567437513620061114807089040831331832584128099137963368679758438399000405892079336817573406086573105268447985972936627839903020960717364326901165633804765711792630701769787552767865257984,
    31909124825994175930493566324020426016697660547553849108066098897119090022578853757076403043649774699927560059370208767204576196424389041661228413279628929716178424595572527235082060323145141374729490051708632373557086958101992659704820908006419783492275591133740412605365505346543929400475374713936654215342929233652854533166710137945424701790105205763720024535598311711811705181661534660766945084715780483456565933369304242458791177096891648655641867122834657390360566024882939824045958407488673615660799079008558687785682669714082091612547033192856245277394475137877920459319215410278157061494627417382653259938269134834231819785669388643292932378810333474980523992459790107770304919533692428115848673472939483353354425694098443209361760180500484704647623025195920881475323353324636012245028201259034199905667353923551679133329381092120539238534862021298867222075105925027824884257249303692560961436861736642298641236318425143416546968470294740659788724106277835887320332498736068427776,
    5126541496104100412058215239272539577041401243235052967248649668146303150953914316415810032740595962428652504230493415177125850860109526345723306905453879845849935581938349376783194497649436300696204598427420410923573273469840539396028047090076544724889887906496993026511867249766692052436169371149599142225286257422165596174696734665117529483720856834815841151264475393908331107248537939922040572173770630682655265669881296413712078374724158402129372541382647208237006821886858057731690567321834636572831774557352348562229832493196305979809509102773301808081826430890802879332670046588198576569500201299328996782161328679899452293262119082966155009337029710583529411954581553849300638850779164661495191994728791810787149000831365509057668643630461547624065201815446297504635122736192828412887851530867309373264893917347457451807731691745623293759534024272906314189287480056090157854510279419733959599692789735544585525280132928836469059665437402633886668079342952711909670295310485099917042236629205664497150366532160,
    34508062186889076145198753659473037537421515400297301382058622970816359495264923943226091128465700360187022352122453448044073581605825779350835243962583706169595060229207341597349112590606180182841716283091617005322851417359445356415288607595560216969209341452893938166542668188379622943443327145394563652930816522162941237883229383801164422946793811719296398736508744399917481695614024039975262794776175362996422097755575541092373669378809224500907453122447013214116646903061411814689665919602924929624785863295697981480347787452469926452978010123485486699975319797846541719424150233588450412067634159010982253448124607492376911798444296925216862991469999982000096373495509435904591607770039158090167269373562907286359577065539282388617685848380225038811840724294000645015216763706804193108628534173862964673635826150246276202346579632506968619374279193703480387843560849377582310971450202803419972348463659235928799735927151739423736734822517484134602102467671298768101193933887774276888171845431144360559062680406272⟩
def row12 : Row :=
  ⟨1421462894209529034606854067657610610682568562744121768175396348181363946300898559202051302277933647799423535622673326258289953584130769494132269341044556630638099783026728460645844362971601422347405545479714011978961272313532654938604189835700661977719376274059905057526355689535689278936786427142856089430392621405939386668520588751760361674481268769121957771187612808628961191313571878655399652838045337244724280184993950904246779409098663900968112423676968883984414188945437214068433799403754377944879821572150574375325839939601925568989291692906007931360083788055375886862343134925571299361800252316407957192399723048236939995109295207825016579681427407226417854027521819679721361420484958661119291755610046452339829345116782039985926440908751279366397658922355767740471837121890959343715906551793153574093124889895740436823623412549415706792238047095990253030190602010584594483044837860629209227799742466403095086714186742460929291982895412396296244534925019193280984411849845825066293394169726004591034438206016,
    1526042261624273269543080908487672633822329275271539522543081740300931537147473898838212495241650383617523581283408096577844872867481149135553312078762989457094426607178080488502562019677093201307885982513957943303410511500442478319002230245071587812192001370131514258659864460191666839907847870837200642989106147622889074127510931707442740849006476704989898829286346516168431809277767999375608810416405800479559826999520579848890084607258227696024152696945230507023112569691189065493090856427139950693748911448612911167995783634431065149941130114881687682454763712640394342808616050065182263137312078090585111706000508989915768417640300749868378868490378188136560999512850266330506207869763208941635613229498641429537724741382109790749596558873271969194491797989744301573265569527750612480366096047137634690664374846271428707080028604340136387643006103227478925940761058672978779238634531288277465925128169183411529949158816441320521475375328549354277548592735353833329422577795764826579340592143257793899494974112320,
    1240563933738633043514133912600481902534225340336278588917919445996588016314651326535658946423887602009773991354509958241735772966603059628135234692790795844310230418202630376305449822532291304759465752806063421437591865923003033015866942799946486835974390081650520318076485552764262458036112230798028938673046719953464326025685259612865169977785566963242584550361057251359520935865334311397185791344571557602982746610075538899113745013697843278880961650459606679619788270034864372720214751341877879744522853027736562344611184046459655182362195311847561723363947596432748221502436572290585791688666280247318064968621658612855505745848737523217368707349625075961238228067957266189969265376148603400104026496049146958080603076663227403874939057779935314360536211356086199062868252722055473010071156785647927442957928657963515239565113352272827062811986153671124901050904389139685401350279611842144248838288099642256514381577133029942531675918840758028398712182749584257657317223613540079328766685100098858447418403275328,
    1393581611870257240288846856494404190991415008780373209979299073475440535076970602841663138781756577326577042016126824750597090788086093333601172608550162625661148039511763414892509547045502695098957181889020542262018598764341050389679203240798118004975986178984357637333396810509792167565068220862827568596122186765212363805833524494281863425289493707993119088903127231477550825048747981174088616026433488281565958153899789745242440193212660383959073569747684252598447314842579355202642597643388178276014381409477894915129335637595373894236415915821653435532982268888881223903048045736159699941229419006927079799796509913764229317545091062970879701727962855861794949546206389279370621314994721675115267220233434871212784036184455544374909914588906512764482725168765292619878392047955824178060033865958211788527167390036244122548756492141679247706435147426866660314560562494440065791480256793590689506034367789560500960018006138902620587518147796083811127842352828496684077024821621043906908763125999791088745707422272,
    573747673257263514577188806823665277244501978083413694088160081488745846567761300375139713237820221148066841097797134788548098253653587317810092240206592609055677462176525658800530829539634355763151485170258208736356894406870053142994897354624485756225303032938082457174047640862403579936212714296073479507760527960999476508544212633286244206235512761964063467324800523621667206491317743304676431054663300798409067343249366598826102226787089482735358043171984788098007771927379967689776304659201221888828764601418153004104328731893331998942519792846024214184844807646034947366270611168486087285694174774910196143609702829180903484172042842361423058781206835436053539169693804111027691794019550298067708812465947685657637290538365802292666686538533297851366797837497328194366563453734378261828403064559782059216030011326824578382810580265753497739210281372440341474116035206779528554013703313515682495367456197725847960516940098439042180006834853571657483947492577102286627486196724860938843429837342724714640564978816,
    859977206677433343354600245667456434565385639392657044033891209600959300398604351627615563180925420727223047387795329755962684817321641536183462499846084258128691106612703022759501219818675085172203721909291456042942459777490644801261147449226391650498951856604608900949467344590189538136314249230549619545999315117454688367563615394056367868758868767496769860976587283934460642675612081931222621753065144628259768345866600297143732019327499155177520693736053055591501148078333163505475543690252790173251889181586732597419421100805139711550915505161412298578162934541457599023469931586656148900179087353691315349600310461457050760490796246737292394196344888531177546999882129942463172580555992758065205519693031640013035776053894825617851375721014183336475117197633341597493766441054749927512292518670908916194616978462992791754545268904146775986443179594476124737158141381204346996667883769712056792945344380767575089204916889957886822900089141080649348915098711496019608393031671434461723734456275571474460842034304,
    29740658594456314664627958091896126195404802943640721447200255803366855799099814416643999284361742726307165473060313788106198754434708254449092858522781736695224045962679589473092417410925884777325065743195906151252019751757988914156989927493602429305395709309249203577083589748540453281508226829795263759886617526555126270844662859518892763638119456373405547276795291894198572602234953026605311266171371331226561975799085193808812048056173117587042543069687701766580841131870464078995345918318863784315347956690057489739188962895192061376723616574456275423422098482836865904562726983073964502383965267646070045038433063493754472932563627107685699990747463844984422203067859226464858831780372089359951660695801812443382161081067221181708221751653154085386224935042765256680584446729808506937366114240426204990910745358412727156588371919826993331688547605231720732833802858991324341175638901825223309822074382931657795446553171262705662666952087054919437209171760611417410049190550422159360,
    33384198243068237958023256843859583197994850349963450049060708777198872780016313392162932476396888120053879629887151167808995116314940632691593741414616018027316797254306996720105768398887848031104604321346867744662190666550821687776212178859385026068757829175001628701644245494135519614486160191753664213919918419290938491711102976709784399885793363971930385549105556255690667909924084804003087917302860622933992797421597731256562073701280826354079207776014524819001956484986023938794356349537721936982350888591891722412630108335136518915285424252598539731218576399057277211582979150070878509376652021979605553858461481545762143456713727035168226702857208809871543818501346785208862093272942883112070135784199145785474251670732187255124866514709520325228654798610408482796682833081706117109074915174062232796196774354623135123579865762077830085575722014578424875260835370151858885100470303962160239160546721519496186954393674729195751338903453026613303765799140067238720698776835932028928,
    5119506167348025094010096321229448180812273865645411127088348409651895723581357002594833993094890717364310114392072765592446152777645265851266005946187613990238837159232796908847799266498638510698593747581101711348702082203719003294005817598573928428798971582633726519730323319646272564066557750897138116805517969005991191882871731707589771877095098771350847112988427518517098356539785541920134981167129239808396699894689866813978391497886735914948119281064831706550900937704969370736667116993714711366474866310665854761949493006250285697023747796882869559439728414239099320963008638946717563153169375036431048402918265208631751148316924666258464863213038932293846788233364278397096622576906834554429994605124232304699378350715600283076974501369956542876327869272952844674420265103995671471427781274664879136575865690203325996388789651916320947414811163118172810880907109848955599456483520686324952781443555781592096538955989614341211233620961612592023989588707207915612070905014473724235436916669874372449323776426560,
    34758618125175257492686586338122983750589225117269545113858406684720627516173068061985863114202275226416736608298588698747686821851854370178668158053521504837226084742481721478968946019727321610941371772596049359416482671474179333464553047688570274869661559720672143209250715458520077049689399240082107321521944645365416223987558976544771639642607568363082759714686762799354112546289568119395631279596641080921656871127842207536618397306295696447673949732159956542237446983113662973142646226098144970108428008520102654827296373062678280590734255105084705184667253300012276199650238733194707826872330212252106296041433979934766429455255318049538340141271284002766591872050431099715972036141028361193818019453564512189587175014021247572344562026082134690701475023483643591068992615257341356738851610826611460638430346775036652509270742175079781462656309563122015164597902092521887957937737868060734547943629146618775133233942821154541625140149169035740626345896425344233524972168379624649111310886251068393699578904119552⟩
def row13 : Row :=
  ⟨1416178452199318867580156120593884388345758115139059065936575139593214553186213306788068227024543516018958291873101484949970764795795253267838851412598215107338600700796181423040267937197862041692119227013000768160025036313381248092784967851599775896057501972931742888487585315123881997706185441416654267565448861969859031006729304884857189952509812417974250799354091645422563400706556747005044889767899380880415106896319285681313352938494478966558720860187127050499346519646458991387456744884080839015945095767370108033492604158891238384438726731070248456612468067244205372688339584989700291862189835392090721874448732718286218484740664038387681173583740507385754735130465434110062026465156196012617157146792670761629525567050856473558246954096434893966267266760573134612053275605488526029960235596137641132486105474623770727603896588849164891444238360010146938601014033080749696304587645887867064903357928359690164274058961608012603278541444888464610558551321114426425728145486001217944298388860458663728417118044736,
    1518934701566800874307609640157390075236796306104376038391546016396194835244353253549691253742358947954266970831928534723989744667142814424228207283055139860259818693678385316965817059135955286087438638775693397532777499586110855284012382914364046089746494700146172585107450519277699207108266516262022291519045496261846851778421148925964304581180520744411035369574544096920480468216693388201852823271461713404743189435161819104387855456641575697898570176289909980375123796181316929684495479462768620896285696780966587265898535809154939314479611139640430066597958084699696465897463746461541173647761954747951982493876113660522680965306225543044219047839360728774801727984096491968171765112167505639875489125579651201682733406814971925251339173673634019431782688918940634282440670643910396107147439509558917444736787117948347287802331793913489569653858166667590163219165684564273542934361709853234862721749830630747010043133543928626114382418153390592187046870285188484133885062006463545417839026906702475272191057281600,
    1178332333706967221978842998558651848310823182532014275630678759658514937551301398934532411980182040835244273180654282583370327715207262579697912246296193532715894459883919127714250948803111850619870229091774360364275126745461206023058591382284707371905678341249120150714226253659877369518902599384911439815600939393051970190791253352441681269106165406310104079705000550094694361270708854042170061685467131447826533994811361895501999692349229187124914170563947966214241527883087277819722076493636109361000384954951443228277178417054698190725866544250974628816256028201558084911778010152394850839755849982374931992251369473130838357541516603350644210493441242871746966520902514666678817536234716924208280539865246725374891725558575574566970636518653869577695913919591628071872430672841667643323233049069345636139659824813597808956423153256038418718536820566160037336167936828269209348182674840222644003968329439894594695203907556362875469188448770372930022756118267744245884719060009073071474886026830393683282905481792,
    1325632182019998788602743893662569987653734250592222812513541323284753740756837711582891102827377499332217507496649071785411444257877283538756479009079327504367777180056156029375802470277900976714285172439107224930291252741618051899687104841071201947485383662729613059540951238752687341958849236984629467249840720853054438625853779193569401912667779039351161780277342583381801589839956287185290159638339219889284278983347284152220129462169374194531962480628694928743302725652527645198432427787897551499655692750457071504680124610772596462316174592439148601195966988327110990639417227909378321125252228390427354061175515094929322609055864665954189228644188076297974655991606488733048424605407179477933076271367658780853035754622452253732820066662776813082098958551781950344218187181641843253664666336829052634157686190647869516432411623070785594518596837608021515105397644675299558385689226460478566913273434177999620325026981084686083335736427138885327434129012674332938980980544625958316683036881012358778428347859520,
    348319560101097379025491746320075610981797889877138204845360861153949755068848998883222292261936606868454350929759018075701605958415043812289216196031694150796610805985499282293605450302816861560186743990418529074705921734384750509957429584275966874963154672163812918742544062876628018238720622648959073661267523442925755968933543696478692980827107099705042717710638043230298626020072414930089593803959799874721333903398247346098122016583603303350267098698685888466070958970180541553933788369710689752358594123370982064055336996509656880927912825591672152576474913741606634180924166836441405015019544975188841177012055578846604752539903119765165012311335561692111264603094871420051094271837096618751365808946647026191704826273263635112808852750051661157832459584254299198486864021329583810862608744898885704194871305383348892160778776392704103558658737758661459553198815167614950067378215442704708087831222922859869980045905625828919773643039891492544932797601171128394844327829598193453060568394015070387984406578304,
    613093507754279400071761055646933852858942646516991736620592912187255654197280880510792526409154053601712305212507407611952287251029271652680217442178380836859580739108548153273269957051086404442415728035799662026072051925914948838514651981176662220382088693452656269414349663282723793233396697173745825918833307537625193409307226523750330194283987525120433432364214867909819871925037362845691107460384192131529477578879139135269500296498549948663031925455515549348173371209455761849208546874233133077194911742114683458777026462456055452492512301679809357046094169201302353656251666034888105997970107634110742987670252965146826857015363886824761452929113937963084235094672845239991170120490193340208230404080395771427028213714342887042130575036713275940240170319370318013381050759012292126422691073540018404318574871976180644881885904811937484017562866219607470993977843016108639895815489382984414591047172633348945553176061465717014660255864866570801430611539706471882601554464604370582039650705073805840282027984000,
    31427389311159486336593415225919724729522801409136809665050479314042773420790210236111903209127552437822967077429275597509231160732615136726244654232945688741119309367505073752932121871432336808456190324150001531605679834586572274719947124478829929230351047879419141926246412406832513827409734109846311964534929802381192442011432571754806535626207551259264457979636607909759304894381520366638282397460890271719775830035303374165706366704334825461158279296474581890528875217724673793175994291430620106031731732967545179707691641185157320829447160517116867934674717182717827443879679980167864026966623629824770973077908660189276130715735679203753771619570185108615560833342787349115155985489713589197717118970004679105440114617101163512353363467914319867389170910374861521969390307865182492831473411089082241778300425764925865072706399674262699997074022697242209463865510140777907555782723997649619270204619541970736936281354864791321135358326944826967241844102874845794695019059373016088576,
    34971409185359307593519863686685845334482251496099954569712626016700281090103286942992522998557766374091752827918731694260769516365193379690622119817328160790785288673765642491788661569873891160855319499004496999648925312754095137009307622277254454193672950786207275233125483112073234435747863997001214390944664666268522565562563951316123165217070021836634796692510304690890401400177838882793584353071871878696613090287599202424500756804626124372547016110256549016963438043572954818894554058672582992978823532828030995421730559387025323871054029374719112067029489663556931670765308119601821663396160882134455194436347524298269620660150887666440002255059182193789040881685629208203710958580467233144365143937833344761041751162678032140132479585769008027025486273315473289311394502925547951739826797777701730631648388155831654057495008661358665320560393321136495782993817259346412114037734787042845547041605784122036076909539539456906312233698280403469550307556549832582118105460546570551296,
    5168857481714564111496716131931089125057498309320486245687097755529740140222852063017929900162662491890327687030642925923765980615355341249440770494375312800253030179471572146091735341780237107800173727187985785100481648378789323419286996494539037713051491068193322432479354796707472924334425981520434938186472926636538806483685061647517731738908966325774835937312115612019411343757565530651433217333888782628178730383329455419134288490002493656407546159819321177114392851677530878107654187554470065401299671235605892920063475831471188825557546833572939448124580800351151004459794948910714364786160097195626877517935431826031902795233363213539970207636859175135761288476873088099434472387866393682252028623309719887059267439882965887957645255433915747087408538161823786249694288245207615094040552327712185510696637752975121381013437931856201756170575139416182116739991479890852672651635300256640127636761445634892885598645043126781926928359872387792976276224375590632015360264792703513651879258839201708250609818223168,
    35394681186773807438336394785318068093328058170650999532102625521231403362985980289591796613430799329961634023319500553862024513842056925444594168122210193596530755288399804465595976344409153098017036856043635050363876237966298844926249515942720906205324496804914153262878335824683173598303060087983583477064128218048725920422954679809092747613137512428039976015376461970322842619059348232483568213024938170184618709828660779508513166838072640017217425252674492846436482667806520555360819185995389478468420665342204472050712670445455948935551041800456174024309749467753184759912030400391740006857579545030698130091712775337765108983720741853932038080208975959758574646026508845448486956953895842585573879943352179321732499499732259024051803981966008551248201306639549134948118322062394561084862670433903415792831815069593366226603417497937437178022136896816431076412071678339989941319353118614031577072114899831381569956027732761735637498479771969312916519192653441723794487619518245627992316740749133010744581895817472⟩
def row14 : Row :=
  ⟨1409221133248752392894377740862497845941968799251753996150228815626561093592434404473342412118288818783079137475631718026074767546530245848079887929828323485232258282449910504815324214981408569119307818102252483622007946944355344033255690605536366834714110964363805025342206024177581721432610291054393332081353303269207480358075707076351325587952786426061705294776100023721485070918382501656442545644024277353740750150744541564549323647820271187883837652772344918954317702137030159035542321202853144195334075908701471141948280534869913258370449713024947679474838704538931195650661870114906325803092992206709125236106330568322385124671954038228865445559111582402962063779417077996412404077848875290806277190420407180741566447873831501107703978136356467352875955454788625144445206052045403996758030544945912718239564889366633009192790110000803620602710943536160408454533841636607951157777947377381068020162806607887869846203031421298237927162635241196641933584546580604259885713105322854875320950905325406559621113397824,
    1510151375316916288325563845147932336591876069461017538286700700225263137216727973113587567127792461190383028437391235207530087784411137359333036315119222773643083491877491458917776390694997961687176739161079788271223724162614255238026675533473511258044366975231740115841272107613264007091975866284664323618365236872728764972220153860774904463735695001342857445438795460451286748339025596136567970267038202742526603647694092767671517249418107484134651868252097726568749607091158748714653074278629423785243023707057570348235245018497734439746241608759470181822976077941530218714938784936382151263194621239642152069235479082613042199801871799069395099219541745529439009016327054514007130794485875880842811817663759552981698671120963806764663729115951904518481328129520060471302543988857940149884671376132342921918450462067014573787557849407494540987660419444327536210931945250225417138856270809202261164757942621428591353512382180607853649734927042728672719524255069636743436854163506052215321306003151422937496585978432,
    1114887247811830503696032599680223544102104835953945248916115500100718810701608128770628335227694259863581663025912501392222160865542195982287822855247384303465064846357114118426335958422687025394212644061905800901388634744618069288597853659642342202451290164052325968337013680351720823407935153610629203652709465488435976759857407294196451105330798687756260987849011395693624022070224580329826236301218773974747549740448037899416468885381314785695172528616335596229210538043387090153930486679988362210724667778029441740478511281695884541712907889249139859148126225963663030320234869749022680829777343841623779263677051504590418390227692455876525552144118164880312759971185290136129681134883908823890482466012742601128098988564424980329634023733273341002483233857368598983537931624306749276744856379861698229503347316067602031027930706970108584187393772689262707163194297022841886224388172998574817070836191559396595693661839459818615751000576655511251117766987379729340453592438957937657837474028864877319362343551552,
    1256521272843275335744015138201426675881886506200808006516729317938317625096327952465281831392833453745010182978239405062748066723788892399091782092062466369819709410355467311371602864364629984409140532646472925876435578295945688486044063450859656660270854518505188185044404880011668902219899909140201805550691330342928319666580299215293556290959715745022166565797893826050466697266087142102123802980331625219569438331511656556122400112849050261778733400442593970083969850371755214258154591181424382752155732042029138477098528559518209260108023224789306287453491989334762543765856862920379793470344347119137045381342269699818229915890703303152388347009653189804105924333563510626669105433596679657891411747554825823244732093164059531195650280142759046313825533120815138653689135629870515866636129089643145171033153838223802681948668603447119425728969641111042870178031428515403611823812901093839073266442929655694116278829741269683703230741557472103142028044565285534948373499575108345456619126451642057231404737970752,
    127618263308355974614132488656467394983833479564630792969507644252019521083454879048853120542391380332882423161438602886147611330133236396280075894308589906980393120137072475552717453838188418784066078690624803127493084444190649285775154332227510419363550536602064151990070633626015721108867405459893040979192467418279315048551490121232369231273158325008831122333508268099941696860627532543001145212497825726809522491135526415555114948133137296064734599489935778177712911208688052688646971202741276692654776490682399216725997957412691389853327723564571421594281317308345375590550949622919873443045508225237835054284632440956634233835328939361233578014420554617564751721741269791285257140592323151406744159933912331579919553691876467995140165149954135597274248965413518922789450457245940270153548281699120921867468190172416875806860530365931881907316579159250742734800480998408471963596812843591542263452001950388880067080653183570380607789698427433302224458710416131052965333991354165623971732765270018431779614917760,
    371433576548162078978243838447124267533092158306321957250961011566731845627969924951230919097216580191059358019761165676947284612777583855531492841698566395262618223604866223519802642556868159682070072826862938297686288183122752813903883584385294092344596813949395225493401017798364566048365627465684376433825545231979907698524735928638735310493049038917320409398010228816219561418213320924935732813264058593106094918269282020369374036718441099284767026159867803186422581497530179128030236959184268311681721203821720994445420208907962617193477116291463441068635312239569078555637764459677454649527490587779051824923897843138585751851365760878307392371359016330782789996509539853431864129871704328411447794174526554436042526686031469285288235591292587932221750827864379461579475122485054207511025915245154283572633445674921280751886088035617395142745180732359911699683286274182015193379922819701126602509312982167880631881860299984146924801068396582335417096137424075419949705964761019394431565423909355347110052922496,
    32920732939659148628055276502772390718153420767060940262438035856584421024366663845763399668149884128449998312136407811334217418335282908191823576536892949973032897997153552776538446608215235930514678318116413963018015785227636076447937711902040102097489600869365203800408991650652499846033096332427694053743851044161764030633961328203187619548928807050456397104777923338762373422625900294161324164872901455593755097845608104682705689552577521685324445938762344452378446452094099046310315965546353016457038464326647137033195138746508982268896893377374055261126710628634047444877067909259634289636364462934682185951752260906332016589375964297205659860669151067732670117334825523610512003783475191232126818858747312914059256096000552890181662236597992159549843534060915147737505230400020112101391750573768696582421589739076282565850607311341045335674504865753016738270436273654216553052119824144769922155296665582386246778777141520782559893900534474312782953456571799884820468426485442543616,
    36365962389204376841085017217531334957711152958038334989119159587966096621443144390774766614906313045184995842483699783257648215979519210723733344155495744024513195880236369924499981018461169826297732416479444012392990168557095427236124598946875593035748694725399478778649956635471625615656233151278745885191223469724815857567970722597191179253899201425335465282644443960547473426705776047649181171422830337303208494926855257588213931216160312887958436188102257611012375552162740454612506727832844749165725540013598114709951803605052305058663259607541639648286471018418156384660764569339803231496503362684607247995307927797814276019628317627505840020264703545828021353558434215647228475753719612857848553087144380907986679236792888671308784342078661182013974158143839172579052190774172398556738856020690583412535650971575708751109643437848120473132132368627784828332999329821828312262535460759950967108879658960956862623778139692178357942461776134015699493744553399899145660444982196043776,
    5212080692470575100408362544207544179120264083999814808548260738741029992228409941093758323723557239984135442049130333376204049858613707589130523879585203778324957822212708363079607233905066382331877719542884413116669466219755828353690323346805897777447713491525328951212184773993072857256431099572609590125986563026264527979195435965410025783490089849889644238675021937386473095654490061106475151042015751933459835580001993156217227459965952791722580162417994249734105738721273629868625939053714598431702585687345584075528481852226553514733940227139262566513967603670429043092244190261203235961556921081256930436554990979888264831920964655223297725789655862349685328717575923347218121170442478955324521216760778315874935849864338812239102143278818484625649011636737260778213499660417243812935139397419041749739780956457090123090264701246923490850336561525743462269072314254979987467271213413518026195475890154626763866855852461761146739169331056991666429193028036145665704881372123613375901536846221037250729877652032,
    35994394568257292260223006473631736320674053017177637937143934693403060114257958997876180492332081321583989746963821431147207113863493531338182635350909601054572812998865375623509734261138011315921940703147200407354668944393293666583626530925371022236198007386895767037211833491628191560253015211726003601674426863099344722246045856723366541769715487867106731909194151471390439737693374623827899497661461864487436670502837115681125000655638731027903808135349328228873581512503408926614695918149688880447390404374852476336351302962866855242116866542522834030198120111872577430575915271726782467172532308579358171029289359282605348563906125899817485437737453529427657680406640685827272593358851626302855739676337941459516638380735850109659915314337934999962674496551449874939263868037569470743535698026533707548711531311003181990732599724941518298929342178777437734349661336302227143370100345811487299399273349231585214511135385395144612854328537688754179306725192622547495417379857951451421029781314924003495592513571072⟩
def row15 : Row :=
  ⟨1400709396692120817136776782935601086746365485618305125984169853198511887144094160160466130605183676505352254754616718077683385829214880763896609347918191936094945413078209205509083397168178231457413081663120703044477230236855409760333604812315973383597257654416297437386372608582464715698334807787833576552314319197602131559626234606884605916891922580895052819733926473038642856557029946863373539259573449719668338010575358568692966715996070796180532714902581937415036171805122900669125461519662854219504611763272447658530240271730845286853824022111198820556550358778126819391062324396256559561212097468193137990130307015645337904648934973662624227118547273843131468893895661643949266219617648611204129831679257927656301112512488782506974769146705361398700113629851917617945156529566877424329551965568069770783400552274714246102679625850316407640023517023832740908225106760256569127937734264114211559205151861374830505748041304254283146093387554669966129972631068655952999349348190015697617485523493423025611470750272,
    1499816520713022484359189565954481356261847010343927099588978685193237148472690054454347555165536227753099494038308676868938933847034549497229283185661738049575247401788369851599376037938060886329026062884670100178967240518807922459690661131695607235064779308387858762071103377851550422907005302315968564418092893197765775904882834460469401756403134940091900903775632822619907028787486514936924276089108563609440178246429914887804891701591479995481076824914993527761516572375072616765829025381735839190519426886815466741849422009764455818571952564157774171863376932573985338938295750877510768784604020016188624931988072286754828537259785083108947022047091263912861907970177369852576010821072282512733640528912865909931502219893938219305821764519797489839068240240471245481247917817994382341775672201824139297387469396330999930264515768273354612643806688014975200850323352151775522745754966616132735897017289202510792296921868787810821142973412608074619710605321095390776911950593464818621968684461270762732637326885440,
    1050532047519090612852582587174361440256324500106401546834754498774727601463337817206705317552437464437421242676059159720316329226266408784616726415617947009946004327076187363874374250117098540778589875865218475010021516658100029038616087374080539822864152821562262256906909716457623805978471038536541151236697239841593085958074443899916961770574328302994767040430965095153189005556797641974252182443271881001336459885323833110059406976723301292624906082128267771029013241441406642623766603548471630893923674630558247620919360045648413007502343343653594304067873207378534827074522054563861527377095754601690131005313224478499102332343634941602443544011223437921555837331550273721366537337549784766601597360070000977395326367024687415164588095422390879491208814923547656966012631485186694926053488856214434272623955104552948393656945444006379963755194957596943234771410208261948403462721541549929682071209866050346680334593479171657773908529057546816113867978167487699788432751299982447451654172701871548625143391535680,
    1186560923562122255162022743354686093997917582313719524065723432452823272894321577860136316154351659247748159063988925019874951158593057857907093324344883088968788840783247966494600092822232755409389397539915710354858710037098036010160341036531119708532259412827698775625027084312985425983635531479108939459427068022741347430539549568462219315367696178109966205022032049103465693350138299733156088065418482624618516813777773472886454809541954930388266290124143297295224170646463616775166918923240021328641464317970014189918512525365160105438654810950759440043938995963767871883231294489682124265478755498593594006605608029340484562419565098876049997107922468986501736599255969367963067046382069932459786111037896395769618061612851418211523495877361053599826981759171077379855178688744581780430458793467215849242210807880932074764829939907974127897353252456842619690796169873329962343182570587264268825976102324994701921114628553583263039750634044925877655701633727303951935015588852322302865723625853554209083481866816,
    57511616203913792473987742610679581654812317759511080314897761040571722030684461415290816794419281237667149043917331122819982642953799218575471226626654016477105099052079700795209273851279130985659154368704314284319759204680510434147648116613307414864214626350687930380689140442301849148452154806534467857757310639522537439893339657369606186820856956501458445419241120172760347526086176747025285966930170893546150058889667788530830314519459152725769308483258636504843800207588806978267290472873835757540995669752287347369482683381369036400551489016419738686162555151724231767194538470411046743967457351043255481958141708628155118109276714953344262232511933129029658787266110825916150066809610900404567299180341086276379952806655712919563723442222627907373617668363774377326010189077220424840836790497492601721594406207011503978413073872003387899733029765737005638361274658275634365012065553130088068758747386411895865998042284276304047436318402118468530766976,
    135826628399119826184853575373085549141611856640544673042546419077833209861615871013924981550517454518435490945690153370202575499627983623075701451558987169850904070450624624240523853333660903143976136610682289581272714363810682577798265527386847127181687988037432498605655948286752759891593644745690883879216011009023925438341785426066436375344820002386284347493604500395284307918666118323744515926174631071677759772778540177569234203002089800796542040697872219344774780122306179211271024391633934654628161148213161114931284454308518893325347787210034169634523179189229002595106552668527120354306024185574401871525998078740232926286816707928295990437336602312242206550568262190343149879435270052766564519659069685245560688150218370099543139705314621298422754269490556697107376439736087343639354322361336857652590124638078137845404088436386758887953568491134778382264311075375393106914546272615440326792491607014480701832227586300611631661874964754527460058422224702799192906865666779670616792726146482654866978014336,
    34232541413514822668310858281794224685015951647237907926643779054345303749540099480595722760309867414780537202853989256077228539761366641190127892177614044620964969572040410393555021166292033129653525064648441606989290895053816674221528854713825392899882050235871525767085137570521975996979601789787389299776923527072617808649844919667079037924016175448158174606809049267969033417298221519121049118691610954972268987879892405110376388172503072939847381672855623383217033024259259510319483666896790495471711035761570205581187524192440264055119244075815598758426180948510306811648336351272503574633395042656732591476723080146812470840780922933787247014110791684715694613738952235729102997665532338641511398725229614276093013678227103722136604756699037752337509596123196622603478548843409915524706841059896560688123834716465206772842995465197689246016767812962953601992410984566598186709471000298586337473069483201943645366256871801603848831894210561572043530223915750342872488693773201571840,
    93738893701070890658386109658825718769376249692713777312944889796586361488796306243745288198861449258608122309874910787521606005578742676497145582716300099308852459773063750042912558193813503049402977056694996496946132687239397114900567461953993325873591472379946758383887515893580098747309607981725401867238861039223799622997360844636097466324513243926086309316797954152109716470712679973335346005633800870904908938887212686236280587400052352503161236507159536331349972319522899038829501802913000263460754349634614964832033644038377358136869256643425653097526218808984342377270835807812029916174796208644947816861377006594907321288780618647603771481056200954299444217876255912034920489997014834036991658213171861609248383075907053749424470564476979891562741961976733590111084716848756123264151983722982746753981585384083393007174428044986011265783195275820414882227992699342945675413825040862875085657744519886228585228177321933818161852537508306734793858532585316087667882511375112983762646183928253101617365123072,
    5249349154739411045994681198749767265481854284735845300505405093908187483428189743650998599794886811173224833453873128418628663882910426663080979305659954436304407215858150579669520038887059508704000777427224150590689059294835454185845961958199663574001751677667742105846593023860754398173735021089652672538038199284643100604031555651866163916023883803451735953871272826797716283669990687143924782406104935929236735950121378847594669091043963529962211762386679592323327524974733418214483984941129878053207660489620774206172625084586784510691580446591384216764685961939938273672327427698203229530401171067068076355910005188107953444233080301665609973510560893988161653720663992659494768976439064761566635244730497497083811882227082751287945948133588536632758913345561701247210716141716157399024957796876340771538432373026293467234842876376892700069659394947387633770030382353271847834384568990833210641642296523952983221883530661776352755387841307597843853398177979576652625976444472829032567654859070089418663896498752,
    36557969185025791423733490265904655263920742559672369698938493936652728770910840325020324055842482466022019987678738892085244643666491154738036879733520371851288581027753008209361390481927031592333334097465850000467918867201836141336635615738933419306631505562945900159326907147767372993438707548055658151983879311344414805222422190083806727307692054142110873260099129825224273716507784347983037689663892591911668384168139714003394830006555871149717085133945762284330972535135039144476056879627474371362464900859544670103282349396840782341337285782505515858775048984171731663945240437221873054147271678692348615982056926753223564452052143193567207996119142241550705182940911132576663756459130177707754832387205379400907540934140480902705983077014570988118152178945362953715933801672309997267519285264161242089072255549329827584455035122960826044707879871164634091933177581775439424710706120416631879653786974223385782190023533155388057220515119087152321668981100461217245125451314502098712778992697881711272297641085184⟩
def rowTab : List Row :=
  [row0, row1, row2, row3, row4, row5, row6, row7, row8, row9, row10, row11,
    row12, row13, row14, row15]
def f1G : List Grp :=
  [(0, [(28667852119581 / 50000000000000, 10), (-1676068752373 / 1000000000000, 1)]),
    (1, [(5851322958729 / 25000000000000, 11), (-21947376343441 / 100000000000000, 1)]),
    (10, [(511537543879 / 31250000000000, 5), (93777539933 / 6250000000000, 2)]),
    (11, [(49495244746459 / 500000000000000, 5), (11676554185811 / 20000000000000, 12), (-7478686756039 / 10000000000000, 13)]),
    (4, [(15016651428987 / 50000000000000, 14)]),
    (12, [(2623192975821 / 12500000000000, 15)]),
    (13, [(-18590151133061 / 1000000000000000, 6)]),
    (14, [(-15782558339049 / 100000000000000, 16)]),
    (15, [(12716735220791 / 100000000000000, 17), (-16009871947173 / 500000000000000, 18)]),
    (7, [(-8506216170567 / 125000000000000, 19), (3036426606717 / 125000000000000, 16)]),
    (16, [(12860112909861 / 2500000000000000, 20)]),
    (8, [(-4771237433383 / 250000000000000, 21)]),
    (9, [(55229677241291 / 10000000000000000, 22)]),
    (17, [(-8839478595217 / 2000000000000000, 23)]),
    (18, [(40061416708429 / 1000000000000000, 24), (-1350083436303 / 40000000000000, 25)]),
    (19, [(-25127658213357 / 10000000000000000, 26)])]
def f1S0 : List SGrp :=
  [(0, [(10, 5733570)], [(1, 16760687)]), (1, [(11, 2340529)], [(1, 2194737)]), (10, [(5, 163692), (2, 150044)], []),
    (11, [(5, 989904), (12, 5838277)], [(13, 7478686)]), (4, [(14, 3003330)], []), (12, [(15, 2098554)], []),
    (13, [], [(6, 185901)]), (14, [], [(16, 1578255)]), (15, [(17, 1271673)], [(18, 320197)]),
    (7, [(16, 242914)], [(19, 680497)]), (16, [(20, 51440)], []), (8, [], [(21, 190849)]),
    (9, [(22, 55229)], []), (17, [], [(23, 44197)]), (18, [(24, 400614)], [(25, 337520)]),
    (19, [], [(26, 25127)])]
def f1S1 : List SGrp :=
  [(0, [(10, 5016874), (1, 2095085)], []), (1, [(11, 1462830), (1, 274342)], []), (10, [(5, 61384)], [(2, 75022)]),
    (11, [(5, 371214), (13, 13087701)], [(12, 9487200)]), (4, [], [(14, 3378746)]), (12, [], [(15, 2098554)]),
    (13, [(6, 139426)], []), (14, [(16, 5523895)], []), (15, [(18, 1280789)], [(17, 4768775)]),
    (7, [(19, 2041491)], [(16, 850199)]), (16, [], [(20, 334362)]), (8, [(21, 2481043)], []),
    (9, [], [(22, 579911)]), (17, [(23, 1104934)], []), (18, [(25, 9788104)], [(24, 10816582)]),
    (19, [(26, 376914)], [])]
def f1S2 : List SGrp :=
  [(0, [], [(10, 627109), (1, 2356971)]), (1, [], [(11, 548561), (1, 308634)]), (10, [(2, 112533)], [(5, 38365)]),
    (11, [(12, 24903900)], [(5, 232008), (13, 35991180)]), (4, [(14, 7179836)], []), (12, [(15, 4197108)], []),
    (13, [], [(6, 243995)]), (14, [], [(16, 24857529)]), (15, [(17, 22651684)], [(18, 6403948)]),
    (7, [(16, 3825897)], [(19, 8165967)]), (16, [(20, 2507722)], []), (8, [], [(21, 34734608)]),
    (9, [(22, 6668983)], []), (17, [], [(23, 28728305)]), (18, [(24, 302864310)], [(25, 293643147)]),
    (19, [], [(26, 6030637)])]
def f1A0 : List AGrp :=
  [(0, [(10, 5733571), (1, 16760688)]), (1, [(11, 2340530), (1, 2194738)]), (10, [(5, 163693), (2, 150045)]),
    (11, [(5, 989905), (12, 5838278), (13, 7478687)]), (4, [(14, 3003331)]), (12, [(15, 2098555)]),
    (13, [(6, 185902)]), (14, [(16, 1578256)]), (15, [(17, 1271674), (18, 320198)]),
    (7, [(19, 680498), (16, 242915)]), (16, [(20, 51441)]), (8, [(21, 190850)]),
    (9, [(22, 55230)]), (17, [(23, 44198)]), (18, [(24, 400615), (25, 337521)]),
    (19, [(26, 25128)])]
def f1A1 : List AGrp :=
  [(0, [(10, 6450267), (1, 35616461)]), (1, [(11, 3218228), (1, 4663818)]), (10, [(5, 266000), (2, 375111)]),
    (11, [(5, 1608596), (12, 21163755), (13, 28045076)]), (4, [(14, 9385408)]), (12, [(15, 6295664)]),
    (13, [(6, 511230)]), (14, [(16, 8680408)]), (15, [(17, 7312123), (18, 1921185)]),
    (7, [(19, 3402487), (16, 1336028)]), (16, [(20, 437244)]), (8, [(21, 2862743)]),
    (9, [(22, 690371)]), (17, [(23, 1193330)]), (18, [(24, 11617811), (25, 10463147)]),
    (19, [(26, 427171)])]
def f1A2 : List AGrp :=
  [(0, [(10, 806284), (1, 40068519)]), (1, [(11, 1206836), (1, 5246795)]), (10, [(5, 166250), (2, 562666)]),
    (11, [(5, 1005373), (12, 55554856), (13, 77123958)]), (4, [(14, 19943991)]), (12, [(15, 12591327)]),
    (13, [(6, 894652)]), (14, [(16, 39061832)]), (15, [(17, 34732584), (18, 9605924)]),
    (7, [(19, 13609946), (16, 6012125)]), (16, [(20, 3279329)]), (8, [(21, 40078395)]),
    (9, [(22, 7939267)]), (17, [(23, 31026570)]), (18, [(24, 325298704), (25, 313894399)]),
    (19, [(26, 6834724)])]
def f1 : Unit := ⟨f1G, f1S0, f1S1, f1S2, f1A0, f1A1, f1A2⟩
def f2G : List Grp :=
  [(0, [(59889711801201 / 100000000000000, 10), (-16941557480731 / 10000000000000, 1)]),
    (1, [(12289868095859 / 50000000000000, 11), (-948898270207 / 4000000000000, 1)]),
    (10, [(17954918715141 / 1000000000000000, 5), (2918575144043 / 200000000000000, 2)]),
    (11, [(5004032968103 / 50000000000000, 5), (7315711538553 / 10000000000000, 12), (-44186136168183 / 50000000000000, 13)]),
    (4, [(7971915061677 / 25000000000000, 14)]),
    (12, [(20766491728799 / 100000000000000, 15)]),
    (13, [(-9689657727079 / 500000000000000, 6)]),
    (14, [(-16936641554983 / 100000000000000, 16)]),
    (15, [(13546846041701 / 100000000000000, 17), (-33066712095307 / 1000000000000000, 18)]),
    (7, [(-60690817018557 / 1000000000000000, 19), (12797548292871 / 1000000000000000, 16)]),
    (16, [(58743664107299 / 10000000000000000, 20)]),
    (8, [(-18451951971969 / 1000000000000000, 21)]),
    (9, [(5903327755309 / 1250000000000000, 22)]),
    (17, [(-52024079680599 / 10000000000000000, 23)]),
    (18, [(8712701191327 / 200000000000000, 24), (-36251690750939 / 1000000000000000, 25)]),
    (19, [(-28974026866543 / 10000000000000000, 26)])]
def f2S0 : List SGrp :=
  [(0, [(10, 5988971)], [(1, 16941557)]), (1, [(11, 2457973)], [(1, 2372245)]), (10, [(5, 179549), (2, 145928)], []),
    (11, [(5, 1000806), (12, 7315711)], [(13, 8837227)]), (4, [(14, 3188766)], []), (12, [(15, 2076649)], []),
    (13, [], [(6, 193793)]), (14, [], [(16, 1693664)]), (15, [(17, 1354684)], [(18, 330667)]),
    (7, [(16, 127975)], [(19, 606908)]), (16, [(20, 58743)], []), (8, [], [(21, 184519)]),
    (9, [(22, 47226)], []), (17, [], [(23, 52024)]), (18, [(24, 435635)], [(25, 362516)]),
    (19, [], [(26, 28974)])]
def f2S1 : List SGrp :=
  [(0, [(10, 5240349), (1, 2117694)], []), (1, [(11, 1536233), (1, 296530)], []), (10, [(5, 67330)], [(2, 72964)]),
    (11, [(5, 375302), (13, 15465147)], [(12, 11888031)]), (4, [], [(14, 3587361)]), (12, [], [(15, 2076649)]),
    (13, [(6, 145344)], []), (14, [(16, 5927824)], []), (15, [(18, 1322668)], [(17, 5080067)]),
    (7, [(19, 1820724)], [(16, 447914)]), (16, [], [(20, 381833)]), (8, [(21, 2398753)], []),
    (9, [], [(22, 495879)]), (17, [(23, 1300601)], []), (18, [(25, 10512990)], [(24, 11762146)]),
    (19, [(26, 434610)], [])]
def f2S2 : List SGrp :=
  [(0, [], [(10, 655043), (1, 2382406)]), (1, [], [(11, 576087), (1, 333597)]), (10, [(2, 109446)], [(5, 42081)]),
    (11, [(12, 31206082)], [(5, 234564), (13, 42529156)]), (4, [(14, 7623143)], []), (12, [(15, 4153298)], []),
    (13, [], [(6, 254353)]), (14, [], [(16, 26675210)]), (15, [(17, 24130319)], [(18, 6613342)]),
    (7, [(16, 2015613)], [(19, 7282898)]), (16, [(20, 2863753)], []), (8, [], [(21, 33582552)]),
    (9, [(22, 5702614)], []), (17, [], [(23, 33815651)]), (18, [(24, 329340105)], [(25, 315389709)]),
    (19, [], [(26, 6953766)])]
def f2A0 : List AGrp :=
  [(0, [(10, 5988972), (1, 16941558)]), (1, [(11, 2457974), (1, 2372246)]), (10, [(5, 179550), (2, 145929)]),
    (11, [(5, 1000807), (12, 7315712), (13, 8837228)]), (4, [(14, 3188767)]), (12, [(15, 2076650)]),
    (13, [(6, 193794)]), (14, [(16, 1693665)]), (15, [(17, 1354685), (18, 330668)]),
    (7, [(19, 606909), (16, 127976)]), (16, [(20, 58744)]), (8, [(21, 184520)]),
    (9, [(22, 47227)]), (17, [(23, 52025)]), (18, [(24, 435636), (25, 362517)]),
    (19, [(26, 28975)])]
def f2A1 : List AGrp :=
  [(0, [(10, 6737593), (1, 36000810)]), (1, [(11, 3379714), (1, 5041023)]), (10, [(5, 291768), (2, 364822)]),
    (11, [(5, 1626311), (12, 26519455), (13, 33139603)]), (4, [(14, 9964894)]), (12, [(15, 6229948)]),
    (13, [(6, 532932)]), (14, [(16, 9315153)]), (15, [(17, 7789437), (18, 1984003)]),
    (7, [(19, 3034541), (16, 703866)]), (16, [(20, 499322)]), (8, [(21, 2767793)]),
    (9, [(22, 590333)]), (17, [(23, 1404651)]), (18, [(24, 12633417), (25, 11238025)]),
    (19, [(26, 492559)])]
def f2A2 : List AGrp :=
  [(0, [(10, 842200), (1, 40500911)]), (1, [(11, 1267393), (1, 5671150)]), (10, [(5, 182355), (2, 547233)]),
    (11, [(5, 1016445), (12, 69613568), (13, 91133906)]), (4, [(14, 21175400)]), (12, [(15, 12459896)]),
    (13, [(6, 932630)]), (14, [(16, 41918188)]), (15, [(17, 36999824), (18, 9920014)]),
    (7, [(19, 12138164), (16, 3167394)]), (16, [(20, 3744909)]), (8, [(21, 38749100)]),
    (9, [(22, 6788827)]), (17, [(23, 36520904)]), (18, [(24, 353735669), (25, 337140724)]),
    (19, [(26, 7880936)])]
def f2 : Unit := ⟨f2G, f2S0, f2S1, f2S2, f2A0, f2A1, f2A2⟩
def f3G : List Grp :=
  [(0, [(52646564804653 / 100000000000000, 27), (-468616407581 / 312500000000, 28)]),
    (1, [(13664893366891 / 50000000000000, 29)]),
    (2, [(6474750011393 / 50000000000000, 11)]),
    (12, [(15404088341841 / 100000000000000, 11), (-29093475473407 / 50000000000000, 3)]),
    (20, [(-2252811854787 / 12500000000000, 1)]),
    (5, [(-23847476018203 / 250000000000000, 3)]),
    (13, [(-80486819317679 / 10000000000000000, 10), (-3554775127309 / 100000000000000, 29)]),
    (6, [(-5615802976481 / 20000000000000, 30)]),
    (7, [(-82435890081677 / 1000000000000000, 31)]),
    (21, [(5416213989503 / 500000000000000, 20), (-67073993161097 / 10000000000000000, 32)]),
    (8, [(-11706976900131 / 2500000000000000, 33), (-28359911832177 / 1000000000000000, 26)]),
    (9, [(9750087372049 / 500000000000000, 34)]),
    (22, [(-10804568753583 / 50000000000000, 35), (10943198731743 / 25000000000000, 23), (-22130790113593 / 100000000000000, 24)]),
    (17, [(15190189957331 / 1000000000000000, 35), (-153809489533 / 10000000000000, 23)])]
def f3S0 : List SGrp :=
  [(0, [(27, 5264656)], [(28, 14995725)]), (1, [(29, 2732978)], []), (2, [(11, 1294950)], []),
    (12, [(11, 1540408)], [(3, 5818695)]), (20, [], [(1, 1802249)]), (5, [], [(3, 953899)]),
    (13, [], [(10, 80486), (29, 355477)]), (6, [], [(30, 2807901)]), (7, [], [(31, 824358)]),
    (21, [(20, 108324)], [(32, 67073)]), (8, [], [(33, 46827), (26, 283599)]), (9, [(34, 195001)], []),
    (22, [(23, 4377279)], [(35, 2160913), (24, 2213079)]), (17, [(35, 151901)], [(23, 153809)])]
def f3S1 : List SGrp :=
  [(0, [(27, 5264656), (28, 3748931)], []), (1, [], [(29, 1708111)]), (2, [(11, 809343)], []),
    (12, [(11, 962755), (3, 2182010)], []), (20, [(1, 225281)], []), (5, [(3, 357712)], []),
    (13, [(29, 222173)], [(10, 70425)]), (6, [(30, 7721729)], []), (7, [(31, 2060897)], []),
    (21, [(32, 469517)], [(20, 704107)]), (8, [(33, 234139), (26, 4253986)], []), (9, [], [(34, 1950017)]),
    (22, [(35, 49701016), (24, 59753133)], [(23, 109431987)]), (17, [(23, 3845237)], [(35, 3493743)])]
def f3S2 : List SGrp :=
  [(0, [(27, 0)], [(28, 4686164)]), (1, [(29, 2775681)], []), (2, [], [(11, 303503)]),
    (12, [], [(11, 361033), (3, 3000264)]), (20, [], [(1, 253441)]), (5, [], [(3, 491854)]),
    (13, [(10, 8803)], [(29, 361031)]), (6, [], [(30, 28956484)]), (7, [], [(31, 7213140)]),
    (21, [(20, 5280808)], [(32, 3756143)]), (8, [], [(33, 1404837), (26, 68063788)]), (9, [(34, 21450192)], []),
    (22, [(23, 2845231670)], [(35, 1192824390), (24, 1673087732)]), (17, [(35, 83849848)], [(23, 99976168)])]
def f3A0 : List AGrp :=
  [(0, [(27, 5264657), (28, 14995726)]), (1, [(29, 2732979)]), (2, [(11, 1294951)]),
    (12, [(11, 1540409), (3, 5818696)]), (20, [(1, 1802250)]), (5, [(3, 953900)]),
    (13, [(10, 80487), (29, 355478)]), (6, [(30, 2807902)]), (7, [(31, 824359)]),
    (21, [(20, 108325), (32, 67074)]), (8, [(33, 46828), (26, 283600)]), (9, [(34, 195002)]),
    (22, [(35, 2160914), (23, 4377280), (24, 2213080)]), (17, [(35, 151902), (23, 153810)])]
def f3A1 : List AGrp :=
  [(0, [(27, 5264657), (28, 33740382)]), (1, [(29, 7174070)]), (2, [(11, 1780557)]),
    (12, [(11, 2118063), (3, 13819401)]), (20, [(1, 3829781)]), (5, [(3, 2265511)]),
    (13, [(10, 90548), (29, 933129)]), (6, [(30, 13337533)]), (7, [(31, 3709616)]),
    (21, [(20, 920757), (32, 603666)]), (8, [(33, 327796), (26, 4821186)]), (9, [(34, 2340021)]),
    (22, [(35, 54022844), (23, 118186547), (24, 64179292)]), (17, [(35, 3797548), (23, 4152857)])]
def f3A2 : List AGrp :=
  [(0, [(27, 1), (28, 42175477)]), (1, [(29, 11657863)]), (2, [(11, 667709)]),
    (12, [(11, 794274), (3, 19001677)]), (20, [(1, 4308503)]), (5, [(3, 3115077)]),
    (13, [(10, 11319), (29, 1516334)]), (6, [(30, 50015746)]), (7, [(31, 12983653)]),
    (21, [(20, 6905673), (32, 4829328)]), (8, [(33, 1966773), (26, 77138961)]), (9, [(34, 25740231)]),
    (22, [(35, 1296548251), (23, 3072850204), (24, 1797020158)]), (17, [(35, 91141140), (23, 107974262)])]
def f3 : Unit := ⟨f3G, f3S0, f3S1, f3S2, f3A0, f3A1, f3A2⟩
def f4G : List Grp :=
  [(0, [(31798390225357 / 50000000000000, 10), (-17377981785459 / 10000000000000, 1)]),
    (1, [(451782201973 / 1562500000000, 11), (-16857138422847 / 50000000000000, 1)]),
    (10, [(22405964699561 / 1000000000000000, 5), (15715424886913 / 1000000000000000, 2)]),
    (11, [(2290126850749 / 20000000000000, 5), (2122409875949 / 2000000000000, 12), (-12855224439423 / 10000000000000, 13)]),
    (4, [(9853657694413 / 25000000000000, 14)]),
    (12, [(31390924682041 / 100000000000000, 15)]),
    (13, [(-21592277117247 / 1000000000000000, 6)]),
    (14, [(-4344733312981 / 20000000000000, 16)]),
    (15, [(-28999574439489 / 100000000000000, 17), (4232117302573 / 10000000000000, 18)]),
    (7, [(2321705012963 / 50000000000000, 19), (-13138398329741 / 100000000000000, 16)]),
    (16, [(718303147773 / 62500000000000, 20)]),
    (8, [(-33387688429909 / 1000000000000000, 21)]),
    (9, [(3795792895911 / 250000000000000, 22)]),
    (17, [(-47610805647657 / 10000000000000000, 23)]),
    (18, [(9383433255577 / 200000000000000, 24), (-39401755804649 / 1000000000000000, 25)]),
    (19, [(-32569956247611 / 10000000000000000, 26)])]
def f4S0 : List SGrp :=
  [(0, [(10, 6359678)], [(1, 17377981)]), (1, [(11, 2891406)], [(1, 3371427)]), (10, [(5, 224059), (2, 157154)], []),
    (11, [(5, 1145063), (12, 10612049)], [(13, 12855224)]), (4, [(14, 3941463)], []), (12, [(15, 3139092)], []),
    (13, [], [(6, 215922)]), (14, [], [(16, 2172366)]), (15, [(18, 4232117)], [(17, 2899957)]),
    (7, [(19, 464341)], [(16, 1313839)]), (16, [(20, 114928)], []), (8, [], [(21, 333876)]),
    (9, [(22, 151831)], []), (17, [], [(23, 47610)]), (18, [(24, 469171)], [(25, 394017)]),
    (19, [], [(26, 32569)])]
def f4S1 : List SGrp :=
  [(0, [(10, 5564718), (1, 2172247)], []), (1, [(11, 1807128), (1, 421428)], []), (10, [(5, 84022)], [(2, 78577)]),
    (11, [(5, 429398), (13, 22496642)], [(12, 17244580)]), (4, [], [(14, 4434145)]), (12, [], [(15, 3139092)]),
    (13, [(6, 161942)], []), (14, [(16, 7603283)], []), (15, [(17, 10874840)], [(18, 16928469)]),
    (7, [(16, 4598439)], [(19, 1393023)]), (16, [], [(20, 747035)]), (8, [(21, 4340399)], []),
    (9, [], [(22, 1594233)]), (17, [(23, 1190270)], []), (18, [(25, 11426509)], [(24, 12667634)]),
    (19, [(26, 488549)], [])]
def f4S2 : List SGrp :=
  [(0, [], [(10, 695589), (1, 2443778)]), (1, [], [(11, 677673), (1, 474107)]), (10, [(2, 117865)], [(5, 52513)]),
    (11, [(12, 45267023)], [(5, 268374), (13, 61865767)]), (4, [(14, 9422560)], []), (12, [(15, 6278184)], []),
    (13, [], [(6, 283398)]), (14, [], [(16, 34214774)]), (15, [(18, 84642346)], [(17, 51655491)]),
    (7, [(19, 5572092)], [(16, 20692977)]), (16, [(20, 5602764)], []), (8, [], [(21, 60765592)]),
    (9, [(22, 18333679)], []), (17, [], [(23, 30947023)]), (18, [(24, 354693777)], [(25, 342795275)]),
    (19, [], [(26, 7816789)])]
def f4A0 : List AGrp :=
  [(0, [(10, 6359679), (1, 17377982)]), (1, [(11, 2891407), (1, 3371428)]), (10, [(5, 224060), (2, 157155)]),
    (11, [(5, 1145064), (12, 10612050), (13, 12855225)]), (4, [(14, 3941464)]), (12, [(15, 3139093)]),
    (13, [(6, 215923)]), (14, [(16, 2172367)]), (15, [(17, 2899958), (18, 4232118)]),
    (7, [(19, 464342), (16, 1313840)]), (16, [(20, 114929)]), (8, [(21, 333877)]),
    (9, [(22, 151832)]), (17, [(23, 47611)]), (18, [(24, 469172), (25, 394018)]),
    (19, [(26, 32570)])]
def f4A1 : List AGrp :=
  [(0, [(10, 7154638), (1, 36928212)]), (1, [(11, 3975684), (1, 7164284)]), (10, [(5, 364097), (2, 392886)]),
    (11, [(5, 1860729), (12, 38468680), (13, 48207092)]), (4, [(14, 12317073)]), (12, [(15, 9417278)]),
    (13, [(6, 593788)]), (14, [(16, 11948017)]), (15, [(17, 16674756), (18, 25392704)]),
    (7, [(19, 2321706), (16, 7226120)]), (16, [(20, 976893)]), (8, [(21, 5008154)]),
    (9, [(22, 1897897)]), (17, [(23, 1285492)]), (18, [(24, 13605979), (25, 12214545)]),
    (19, [(26, 553690)])]
def f4A2 : List AGrp :=
  [(0, [(10, 894330), (1, 41544238)]), (1, [(11, 1490882), (1, 8059820)]), (10, [(5, 227561), (2, 589329)]),
    (11, [(5, 1162956), (12, 100980283), (13, 132569503)]), (4, [(14, 26173779)]), (12, [(15, 18834555)]),
    (13, [(6, 1039129)]), (14, [(16, 53766075)]), (15, [(17, 79205088), (18, 126963520)]),
    (7, [(19, 9286821), (16, 32517536)]), (16, [(20, 7326693)]), (8, [(21, 70114146)]),
    (9, [(22, 21825810)]), (17, [(23, 33422786)]), (18, [(24, 380967391), (25, 366436329)]),
    (19, [(26, 8859029)])]
def f4 : Unit := ⟨f4G, f4S0, f4S1, f4S2, f4A0, f4A1, f4A2⟩
def f5G : List Grp :=
  [(0, [(5201986553679 / 5000000000000, 0), (-28318404081403 / 10000000000000, 1), (42196904803147 / 50000000000000, 2)]),
    (1, [(-76559591850023 / 1000000000000000, 3)]),
    (2, [(73982322701 / 781250000000, 0)]),
    (3, [(12398237748503 / 50000000000000000, 4)]),
    (4, [(2774376042287 / 10000000000000, 5)]),
    (5, [(-43846000648377 / 1000000000000000, 6)]),
    (6, [(-539821295687 / 2000000000000, 7)]),
    (7, [(-3465670654493 / 50000000000000, 7)]),
    (8, [(-29632145981653 / 1000000000000000, 8)]),
    (9, [(702006337569 / 50000000000000, 9)])]
def f5S0 : List SGrp :=
  [(0, [(0, 10403973), (2, 8439380)], [(1, 28318404)]), (1, [], [(3, 765595)]), (2, [(0, 946973)], []),
    (3, [(4, 2479)], []), (4, [(5, 2774376)], []), (5, [], [(6, 438460)]),
    (6, [], [(7, 2699106)]), (7, [], [(7, 693134)]), (8, [], [(8, 296321)]),
    (9, [(9, 140401)], [])]
def f5S1 : List SGrp :=
  [(0, [(0, 7802979), (1, 3539800)], [(2, 4219690)]), (1, [(3, 287098)], []), (2, [(0, 710230)], []),
    (3, [(4, 309)], []), (4, [(5, 1040391)], []), (5, [(6, 328845)], []),
    (6, [(7, 7085154)], []), (7, [(7, 1819477)], []), (8, [(8, 4000339)], []),
    (9, [], [(9, 1544413)])]
def f5S2 : List SGrp :=
  [(0, [(2, 6329535)], [(0, 1950744), (1, 3982275)]), (1, [], [(3, 394760)]), (2, [], [(0, 177557)]),
    (3, [], [(4, 271)]), (4, [], [(5, 650244)]), (5, [], [(6, 575478)]),
    (6, [], [(7, 25683685)]), (7, [], [(7, 6595604)]), (8, [], [(8, 58004925)]),
    (9, [(9, 18532967)], [])]
def f5A0 : List AGrp :=
  [(0, [(0, 10403974), (1, 28318405), (2, 8439381)]), (1, [(3, 765596)]), (2, [(0, 946974)]),
    (3, [(4, 2480)]), (4, [(5, 2774377)]), (5, [(6, 438461)]),
    (6, [(7, 2699107)]), (7, [(7, 693135)]), (8, [(8, 296322)]),
    (9, [(9, 140402)])]
def f5A1 : List AGrp :=
  [(0, [(0, 13004967), (1, 60176609), (2, 21098453)]), (1, [(3, 1818291)]), (2, [(0, 1183718)]),
    (3, [(4, 4650)]), (4, [(5, 4508362)]), (5, [(6, 1205766)]),
    (6, [(7, 12483368)]), (7, [(7, 3205746)]), (8, [(8, 4592983)]),
    (9, [(9, 1825217)])]
def f5A2 : List AGrp :=
  [(0, [(0, 3251242), (1, 67698685), (2, 31647679)]), (1, [(3, 2500150)]), (2, [(0, 295930)]),
    (3, [(4, 4069)]), (4, [(5, 2817726)]), (5, [(6, 2110089)]),
    (6, [(7, 45252208)]), (7, [(7, 11620827)]), (8, [(8, 66598249)]),
    (9, [(9, 21902598)])]
def f5 : Unit := ⟨f5G, f5S0, f5S1, f5S2, f5A0, f5A1, f5A2⟩
def f6G : List Grp :=
  [(0, [(104293315891 / 100000000000, 0), (-7046068137223 / 2500000000000, 1), (1723524647957 / 2000000000000, 2)]),
    (1, [(-10613619452487 / 100000000000000, 3)]),
    (2, [(49307874651067 / 500000000000000, 0)]),
    (3, [(11974104341161 / 50000000000000000, 4)]),
    (4, [(606600097139 / 2000000000000, 5)]),
    (5, [(-41598156135099 / 1000000000000000, 6)]),
    (6, [(-14995968735029 / 50000000000000, 7)]),
    (7, [(-80369342764109 / 1000000000000000, 7)]),
    (8, [(-29761373251151 / 1000000000000000, 8)]),
    (9, [(652981515157 / 50000000000000, 9)])]
def f6S0 : List SGrp :=
  [(0, [(0, 10429331), (2, 8617623)], [(1, 28184272)]), (1, [], [(3, 1061361)]), (2, [(0, 986157)], []),
    (3, [(4, 2394)], []), (4, [(5, 3033000)], []), (5, [], [(6, 415981)]),
    (6, [], [(7, 2999193)]), (7, [], [(7, 803693)]), (8, [], [(8, 297613)]),
    (9, [(9, 130596)], [])]
def f6S1 : List SGrp :=
  [(0, [(0, 7821998), (1, 3523034)], [(2, 4308811)]), (1, [(3, 398010)], []), (2, [(0, 739618)], []),
    (3, [(4, 299)], []), (4, [(5, 1137375)], []), (5, [(6, 311986)], []),
    (6, [(7, 7872883)], []), (7, [(7, 2109695)], []), (8, [(8, 4017785)], []),
    (9, [], [(9, 1436559)])]
def f6S2 : List SGrp :=
  [(0, [(2, 6463217)], [(0, 1955499), (1, 3963413)]), (1, [], [(3, 547264)]), (2, [], [(0, 184904)]),
    (3, [], [(4, 261)]), (4, [], [(5, 710859)]), (5, [], [(6, 545975)]),
    (6, [], [(7, 28539202)]), (7, [], [(7, 7647645)]), (8, [], [(8, 58257888)]),
    (9, [(9, 17238712)], [])]
def f6A0 : List AGrp :=
  [(0, [(0, 10429332), (1, 28184273), (2, 8617624)]), (1, [(3, 1061362)]), (2, [(0, 986158)]),
    (3, [(4, 2395)]), (4, [(5, 3033001)]), (5, [(6, 415982)]),
    (6, [(7, 2999194)]), (7, [(7, 803694)]), (8, [(8, 297614)]),
    (9, [(9, 130597)])]
def f6A1 : List AGrp :=
  [(0, [(0, 13036665), (1, 59891580), (2, 21544059)]), (1, [(3, 2520735)]), (2, [(0, 1232697)]),
    (3, [(4, 4491)]), (4, [(5, 4928626)]), (5, [(6, 1143950)]),
    (6, [(7, 13871272)]), (7, [(7, 3717083)]), (8, [(8, 4613013)]),
    (9, [(9, 1697752)])]
def f6A2 : List AGrp :=
  [(0, [(0, 3259167), (1, 67378027), (2, 32316088)]), (1, [(3, 3466011)]), (2, [(0, 308175)]),
    (3, [(4, 3930)]), (4, [(5, 3080392)]), (5, [(6, 2001912)]),
    (6, [(7, 50283358)]), (7, [(7, 13474423)]), (8, [(8, 66888687)]),
    (9, [(9, 20373024)])]
def f6 : Unit := ⟨f6G, f6S0, f6S1, f6S2, f6A0, f6A1, f6A2⟩
def f7G : List Grp :=
  [(0, [(2125255482291 / 2000000000000, 0), (-572419036567 / 200000000000, 1), (88738233403777 / 100000000000000, 2)]),
    (1, [(-2514116231069 / 20000000000000, 3)]),
    (2, [(5143154354053 / 50000000000000, 0)]),
    (3, [(12679020301327 / 50000000000000000, 4)]),
    (4, [(16162600116991 / 50000000000000, 5)]),
    (5, [(-4743845132179 / 125000000000000, 6)]),
    (6, [(-8133700503613 / 25000000000000, 7)]),
    (7, [(-79050969051011 / 1000000000000000, 7)]),
    (8, [(-825468821911 / 40000000000000, 8)]),
    (9, [(228215237339 / 40000000000000, 9)])]
def f7S0 : List SGrp :=
  [(0, [(0, 10626277), (2, 8873823)], [(1, 28620951)]), (1, [], [(3, 1257058)]), (2, [(0, 1028630)], []),
    (3, [(4, 2535)], []), (4, [(5, 3232520)], []), (5, [], [(6, 379507)]),
    (6, [], [(7, 3253480)]), (7, [], [(7, 790509)]), (8, [], [(8, 206367)]),
    (9, [(9, 57053)], [])]
def f7S1 : List SGrp :=
  [(0, [(0, 7969708), (1, 3577618)], [(2, 4436911)]), (1, [(3, 471396)], []), (2, [(0, 771473)], []),
    (3, [(4, 316)], []), (4, [(5, 1212195)], []), (5, [(6, 284630)], []),
    (6, [(7, 8540385)], []), (7, [(7, 2075087)], []), (8, [(8, 2785957)], []),
    (9, [], [(9, 627591)])]
def f7S2 : List SGrp :=
  [(0, [(2, 6655367)], [(0, 1992427), (1, 4024821)]), (1, [], [(3, 648170)]), (2, [], [(0, 192868)]),
    (3, [], [(4, 277)]), (4, [], [(5, 757621)]), (5, [], [(6, 498103)]),
    (6, [], [(7, 30958897)]), (7, [], [(7, 7522193)]), (8, [], [(8, 40396380)]),
    (9, [(9, 7531102)], [])]
def f7A0 : List AGrp :=
  [(0, [(0, 10626278), (1, 28620952), (2, 8873824)]), (1, [(3, 1257059)]), (2, [(0, 1028631)]),
    (3, [(4, 2536)]), (4, [(5, 3232521)]), (5, [(6, 379508)]),
    (6, [(7, 3253481)]), (7, [(7, 790510)]), (8, [(8, 206368)]),
    (9, [(9, 57054)])]
def f7A1 : List AGrp :=
  [(0, [(0, 13282847), (1, 60819523), (2, 22184559)]), (1, [(3, 2985514)]), (2, [(0, 1285789)]),
    (3, [(4, 4755)]), (4, [(5, 5252846)]), (5, [(6, 1043646)]),
    (6, [(7, 15047346)]), (7, [(7, 3656108)]), (8, [(8, 3198692)]),
    (9, [(9, 741700)])]
def f7A2 : List AGrp :=
  [(0, [(0, 3320712), (1, 68421963), (2, 33276838)]), (1, [(3, 4105081)]), (2, [(0, 321448)]),
    (3, [(4, 4161)]), (4, [(5, 3283029)]), (5, [(6, 1826381)]),
    (6, [(7, 54546630)]), (7, [(7, 13253390)]), (8, [(8, 46381030)]),
    (9, [(9, 8900395)])]
def f7 : Unit := ⟨f7G, f7S0, f7S1, f7S2, f7A0, f7A1, f7A2⟩
def f8G : List Grp :=
  [(0, [(10963 / 10000, 0), (-15201 / 5000, 1), (10317 / 10000, 2)]),
    (1, [(-1541 / 10000, 3)]),
    (2, [(2307 / 20000, 0)]),
    (3, [(29809 / 100000000, 4)]),
    (4, [(39571 / 100000, 5)]),
    (5, [(-45881 / 1000000, 6)]),
    (6, [(-8951 / 25000, 7)]),
    (7, [(-10107 / 100000, 7)]),
    (8, [(-8871 / 250000, 8)]),
    (9, [(4539 / 250000, 9)])]
def f8S0 : List SGrp :=
  [(0, [(0, 10963000), (2, 10317000)], [(1, 30402000)]), (1, [], [(3, 1541000)]), (2, [(0, 1153500)], []),
    (3, [(4, 2980)], []), (4, [(5, 3957100)], []), (5, [], [(6, 458810)]),
    (6, [], [(7, 3580400)]), (7, [], [(7, 1010700)]), (8, [], [(8, 354840)]),
    (9, [(9, 181560)], [])]
def f8S1 : List SGrp :=
  [(0, [(0, 8222250), (1, 3800250)], [(2, 5158500)]), (1, [(3, 577875)], []), (2, [(0, 865125)], []),
    (3, [(4, 372)], []), (4, [(5, 1483912)], []), (5, [(6, 344107)], []),
    (6, [(7, 9398550)], []), (7, [(7, 2653087)], []), (8, [(8, 4790340)], []),
    (9, [], [(9, 1997160)])]
def f8S2 : List SGrp :=
  [(0, [(2, 7737750)], [(0, 2055562), (1, 4275281)]), (1, [], [(3, 794578)]), (2, [], [(0, 216281)]),
    (3, [], [(4, 326)]), (4, [], [(5, 927445)]), (5, [], [(6, 602188)]),
    (6, [], [(7, 34069743)]), (7, [], [(7, 9617442)]), (8, [], [(8, 69459930)]),
    (9, [(9, 23965920)], [])]
def f8A0 : List AGrp :=
  [(0, [(0, 10963001), (1, 30402001), (2, 10317001)]), (1, [(3, 1541001)]), (2, [(0, 1153501)]),
    (3, [(4, 2981)]), (4, [(5, 3957101)]), (5, [(6, 458811)]),
    (6, [(7, 3580401)]), (7, [(7, 1010701)]), (8, [(8, 354841)]),
    (9, [(9, 181561)])]
def f8A1 : List AGrp :=
  [(0, [(0, 13703751), (1, 64604251), (2, 25792501)]), (1, [(3, 3659876)]), (2, [(0, 1441876)]),
    (3, [(4, 5590)]), (4, [(5, 6430288)]), (5, [(6, 1261728)]),
    (6, [(7, 16559351)]), (7, [(7, 4674488)]), (8, [(8, 5500021)]),
    (9, [(9, 2360281)])]
def f8A2 : List AGrp :=
  [(0, [(0, 3425938), (1, 72679782), (2, 38688751)]), (1, [(3, 5032329)]), (2, [(0, 360469)]),
    (3, [(4, 4891)]), (4, [(5, 4018930)]), (5, [(6, 2208024)]),
    (6, [(7, 60027644)]), (7, [(7, 16945018)]), (8, [(8, 79750291)]),
    (9, [(9, 28323361)])]
def f8 : Unit := ⟨f8G, f8S0, f8S1, f8S2, f8A0, f8A1, f8A2⟩
def f9G : List Grp :=
  [(0, [(10968643098001 / 10000000000000, 0), (-29988888298061 / 10000000000000, 1), (24879221699803 / 25000000000000, 2)]),
    (1, [(-16170708558539 / 100000000000000, 3)]),
    (2, [(453378402911 / 4000000000000, 0)]),
    (3, [(6690148787687 / 25000000000000000, 4)]),
    (4, [(40979881986931 / 100000000000000, 5)]),
    (5, [(-1635056923323 / 40000000000000, 6)]),
    (6, [(-38169482469447 / 100000000000000, 7)]),
    (7, [(-10931956843993 / 100000000000000, 7)]),
    (8, [(-3207322332799 / 100000000000000, 8)]),
    (9, [(675080648679 / 40000000000000, 9)])]
def f9S0 : List SGrp :=
  [(0, [(0, 10968643), (2, 9951688)], [(1, 29988888)]), (1, [], [(3, 1617070)]), (2, [(0, 1133446)], []),
    (3, [(4, 2676)], []), (4, [(5, 4097988)], []), (5, [], [(6, 408764)]),
    (6, [], [(7, 3816948)]), (7, [], [(7, 1093195)]), (8, [], [(8, 320732)]),
    (9, [(9, 168770)], [])]
def f9S1 : List SGrp :=
  [(0, [(0, 8226482), (1, 3748611)], [(2, 4975844)]), (1, [(3, 606401)], []), (2, [(0, 850084)], []),
    (3, [(4, 334)], []), (4, [(5, 1536745)], []), (5, [(6, 306573)], []),
    (6, [(7, 10019489)], []), (7, [(7, 2869638)], []), (8, [(8, 4329885)], []),
    (9, [], [(9, 1856471)])]
def f9S2 : List SGrp :=
  [(0, [(2, 7463766)], [(0, 2056620), (1, 4217187)]), (1, [], [(3, 833802)]), (2, [], [(0, 212521)]),
    (3, [], [(4, 292)]), (4, [], [(5, 960465)]), (5, [], [(6, 536503)]),
    (6, [], [(7, 36320648)]), (7, [], [(7, 10402440)]), (8, [], [(8, 62783334)]),
    (9, [(9, 22277661)], [])]
def f9A0 : List AGrp :=
  [(0, [(0, 10968644), (1, 29988889), (2, 9951689)]), (1, [(3, 1617071)]), (2, [(0, 1133447)]),
    (3, [(4, 2677)]), (4, [(5, 4097989)]), (5, [(6, 408765)]),
    (6, [(7, 3816949)]), (7, [(7, 1093196)]), (8, [(8, 320733)]),
    (9, [(9, 168771)])]
def f9A1 : List AGrp :=
  [(0, [(0, 13710804), (1, 63726388), (2, 24879222)]), (1, [(3, 3840544)]), (2, [(0, 1416808)]),
    (3, [(4, 5018)]), (4, [(5, 6659231)]), (5, [(6, 1124102)]),
    (6, [(7, 17653386)]), (7, [(7, 5056031)]), (8, [(8, 4971350)]),
    (9, [(9, 2194013)])]
def f9A2 : List AGrp :=
  [(0, [(0, 3427701), (1, 71692187), (2, 37318833)]), (1, [(3, 5280748)]), (2, [(0, 354202)]),
    (3, [(4, 4391)]), (4, [(5, 4162020)]), (5, [(6, 1967178)]),
    (6, [(7, 63993523)]), (7, [(7, 18328109)]), (8, [(8, 72084570)]),
    (9, [(9, 26328146)])]
def f9 : Unit := ⟨f9G, f9S0, f9S1, f9S2, f9A0, f9A1, f9A2⟩
def f10G : List Grp :=
  [(0, [(10553238013661 / 10000000000000, 0), (-26120615890629 / 10000000000000, 1), (3830694148363 / 5000000000000, 2)]),
    (1, [(-29770320622459 / 100000000000000, 3)]),
    (2, [(5939953866679 / 50000000000000, 0)]),
    (3, [(27922861062617 / 100000000000000000, 4)]),
    (4, [(9269517968821 / 20000000000000, 5)]),
    (5, [(11433196980297 / 1000000000000000, 6)]),
    (6, [(-48256968738131 / 100000000000000, 7)]),
    (7, [(-93750558924659 / 1000000000000000, 7)]),
    (8, [(-33636623577997 / 5000000000000000, 8)]),
    (9, [(-12785395896357 / 2500000000000000, 9)])]
def f10S0 : List SGrp :=
  [(0, [(0, 10553238), (2, 7661388)], [(1, 26120615)]), (1, [], [(3, 2977032)]), (2, [(0, 1187990)], []),
    (3, [(4, 2792)], []), (4, [(5, 4634758)], []), (5, [(6, 114331)], []),
    (6, [], [(7, 4825696)]), (7, [], [(7, 937505)]), (8, [], [(8, 67273)]),
    (9, [], [(9, 51141)])]
def f10S1 : List SGrp :=
  [(0, [(0, 7914928), (1, 3265076)], [(2, 3830694)]), (1, [(3, 1116387)], []), (2, [(0, 890993)], []),
    (3, [(4, 349)], []), (4, [(5, 1738034)], []), (5, [], [(6, 85748)]),
    (6, [(7, 12667454)], []), (7, [(7, 2460952)], []), (8, [(8, 908188)], []),
    (9, [(9, 562557)], [])]
def f10S2 : List SGrp :=
  [(0, [(2, 5746041)], [(0, 1978732), (1, 3673211)]), (1, [], [(3, 1535032)]), (2, [], [(0, 222748)]),
    (3, [], [(4, 305)]), (4, [], [(5, 1086271)]), (5, [(6, 150060)], []),
    (6, [], [(7, 45919521)]), (7, [], [(7, 8920951)]), (8, [], [(8, 13168738)]),
    (9, [], [(9, 6750689)])]
def f10A0 : List AGrp :=
  [(0, [(0, 10553239), (1, 26120616), (2, 7661389)]), (1, [(3, 2977033)]), (2, [(0, 1187991)]),
    (3, [(4, 2793)]), (4, [(5, 4634759)]), (5, [(6, 114332)]),
    (6, [(7, 4825697)]), (7, [(7, 937506)]), (8, [(8, 67274)]),
    (9, [(9, 51142)])]
def f10A1 : List AGrp :=
  [(0, [(0, 13191548), (1, 55506309), (2, 19153471)]), (1, [(3, 7070452)]), (2, [(0, 1484989)]),
    (3, [(4, 5236)]), (4, [(5, 7531484)]), (5, [(6, 314413)]),
    (6, [(7, 22318849)]), (7, [(7, 4335964)]), (8, [(8, 1042736)]),
    (9, [(9, 664841)])]
def f10A2 : List AGrp :=
  [(0, [(0, 3297887), (1, 62444598), (2, 28730207)]), (1, [(3, 9721871)]), (2, [(0, 371248)]),
    (3, [(4, 4582)]), (4, [(5, 4707178)]), (5, [(6, 550223)]),
    (6, [(7, 80905825)]), (7, [(7, 15717868)]), (8, [(8, 15119663)]),
    (9, [(9, 7978088)])]
def f10 : Unit := ⟨f10G, f10S0, f10S1, f10S2, f10A0, f10A1, f10A2⟩
def f11G : List Grp :=
  [(0, [(5271873822631 / 5000000000000, 0), (-828146297067 / 312500000000, 1), (81730047827543 / 100000000000000, 2)]),
    (1, [(-7612847813357 / 25000000000000, 3)]),
    (2, [(30634671777 / 250000000000, 0)]),
    (3, [(3408309092991 / 12500000000000000, 4)]),
    (4, [(4986582568167 / 10000000000000, 5)]),
    (5, [(-4464550942761 / 6250000000000000, 6)]),
    (6, [(-1084737910509 / 2000000000000, 7)]),
    (7, [(-3450455402689 / 25000000000000, 7)]),
    (8, [(-61595287380011 / 10000000000000000, 8)]),
    (9, [(24301255196511 / 50000000000000000, 9)])]
def f11S0 : List SGrp :=
  [(0, [(0, 10543747), (2, 8173004)], [(1, 26500681)]), (1, [], [(3, 3045139)]), (2, [(0, 1225386)], []),
    (3, [(4, 2726)], []), (4, [(5, 4986582)], []), (5, [], [(6, 7143)]),
    (6, [], [(7, 5423689)]), (7, [], [(7, 1380182)]), (8, [], [(8, 61595)]),
    (9, [(9, 4860)], [])]
def f11S1 : List SGrp :=
  [(0, [(0, 7907810), (1, 3312585)], [(2, 4086502)]), (1, [(3, 1141927)], []), (2, [(0, 919040)], []),
    (3, [(4, 340)], []), (4, [(5, 1869968)], []), (5, [(6, 5357)], []),
    (6, [(7, 14237185)], []), (7, [(7, 3622978)], []), (8, [(8, 831536)], []),
    (9, [], [(9, 53462)])]
def f11S2 : List SGrp :=
  [(0, [(2, 6129753)], [(0, 1976952), (1, 3726658)]), (1, [], [(3, 1570149)]), (2, [], [(0, 229760)]),
    (3, [], [(4, 298)]), (4, [], [(5, 1168730)]), (5, [], [(6, 9375)]),
    (6, [], [(7, 51609795)]), (7, [], [(7, 13133295)]), (8, [], [(8, 12057277)]),
    (9, [(9, 641553)], [])]
def f11A0 : List AGrp :=
  [(0, [(0, 10543748), (1, 26500682), (2, 8173005)]), (1, [(3, 3045140)]), (2, [(0, 1225387)]),
    (3, [(4, 2727)]), (4, [(5, 4986583)]), (5, [(6, 7144)]),
    (6, [(7, 5423690)]), (7, [(7, 1380183)]), (8, [(8, 61596)]),
    (9, [(9, 4861)])]
def f11A1 : List AGrp :=
  [(0, [(0, 13179685), (1, 56313949), (2, 20432512)]), (1, [(3, 7232206)]), (2, [(0, 1531734)]),
    (3, [(4, 5113)]), (4, [(5, 8103197)]), (5, [(6, 19645)]),
    (6, [(7, 25084565)]), (7, [(7, 6383343)]), (8, [(8, 954727)]),
    (9, [(9, 63184)])]
def f11A2 : List AGrp :=
  [(0, [(0, 3294922), (1, 63353192), (2, 30648768)]), (1, [(3, 9944283)]), (2, [(0, 382934)]),
    (3, [(4, 4474)]), (4, [(5, 5064498)]), (5, [(6, 34378)]),
    (6, [(7, 90931546)]), (7, [(7, 23139617)]), (8, [(8, 13843541)]),
    (9, [(9, 758200)])]
def f11 : Unit := ⟨f11G, f11S0, f11S1, f11S2, f11A0, f11A1, f11A2⟩
def f12G : List Grp :=
  [(0, [(10722544875633 / 10000000000000, 0), (-24632951172003 / 10000000000000, 1), (4086667128433 / 6250000000000, 2)]),
    (1, [(-9081243521407 / 25000000000000, 3)]),
    (2, [(317831740669 / 2500000000000, 0)]),
    (3, [(3071357277793 / 10000000000000000, 4)]),
    (4, [(2632842849377 / 5000000000000, 5)]),
    (5, [(19362862857653 / 1000000000000000, 6)]),
    (6, [(-11787885369831 / 20000000000000, 7)]),
    (7, [(-7034981995967 / 50000000000000, 7)]),
    (8, [(-19741582625009 / 2500000000000000, 8)]),
    (9, [(33036597968109 / 10000000000000000, 9)])]
def f12S0 : List SGrp :=
  [(0, [(0, 10722544), (2, 6538667)], [(1, 24632951)]), (1, [], [(3, 3632497)]), (2, [(0, 1271326)], []),
    (3, [(4, 3071)], []), (4, [(5, 5265685)], []), (5, [(6, 193628)], []),
    (6, [], [(7, 5893942)]), (7, [], [(7, 1406996)]), (8, [], [(8, 78966)]),
    (9, [(9, 33036)], [])]
def f12S1 : List SGrp :=
  [(0, [(0, 8041908), (1, 3079118)], [(2, 3269333)]), (1, [(3, 1362186)], []), (2, [(0, 953495)], []),
    (3, [(4, 383)], []), (4, [(5, 1974632)], []), (5, [], [(6, 145221)]),
    (6, [(7, 15471599)], []), (7, [(7, 3693365)], []), (8, [(8, 1066045)], []),
    (9, [], [(9, 363402)])]
def f12S2 : List SGrp :=
  [(0, [(2, 4904000)], [(0, 2010477), (1, 3464008)]), (1, [], [(3, 1873006)]), (2, [], [(0, 238373)]),
    (3, [], [(4, 335)]), (4, [], [(5, 1234145)]), (5, [(6, 254137)], []),
    (6, [], [(7, 56084548)]), (7, [], [(7, 13388450)]), (8, [], [(8, 15457659)]),
    (9, [(9, 4360830)], [])]
def f12A0 : List AGrp :=
  [(0, [(0, 10722545), (1, 24632952), (2, 6538668)]), (1, [(3, 3632498)]), (2, [(0, 1271327)]),
    (3, [(4, 3072)]), (4, [(5, 5265686)]), (5, [(6, 193629)]),
    (6, [(7, 5893943)]), (7, [(7, 1406997)]), (8, [(8, 78967)]),
    (9, [(9, 33037)])]
def f12A1 : List AGrp :=
  [(0, [(0, 13403182), (1, 52345022), (2, 16346669)]), (1, [(3, 8627182)]), (2, [(0, 1589159)]),
    (3, [(4, 5759)]), (4, [(5, 8556740)]), (5, [(6, 532479)]),
    (6, [(7, 27259485)]), (7, [(7, 6507359)]), (8, [(8, 1223979)]),
    (9, [(9, 429476)])]
def f12A2 : List AGrp :=
  [(0, [(0, 3350796), (1, 58888149), (2, 24520003)]), (1, [(3, 11862375)]), (2, [(0, 397290)]),
    (3, [(4, 5039)]), (4, [(5, 5347963)]), (5, [(6, 931838)]),
    (6, [(7, 98815633)]), (7, [(7, 23589175)]), (8, [(8, 17747683)]),
    (9, [(9, 5153710)])]
def f12 : Unit := ⟨f12G, f12S0, f12S1, f12S2, f12A0, f12A1, f12A2⟩
def f13G : List Grp :=
  [(0, [(11151 / 10000, 0), (-1351 / 500, 1), (10427 / 12500, 2)]),
    (1, [(-9707 / 25000, 3)]),
    (2, [(86 / 625, 0)]),
    (3, [(5637 / 20000000, 4)]),
    (4, [(62037 / 100000, 5)]),
    (5, [(15847 / 1000000, 6)]),
    (6, [(-30863 / 50000, 7)]),
    (7, [(-15043 / 100000, 7)]),
    (8, [(-6491 / 500000, 8)]),
    (9, [(1773 / 400000, 9)])]
def f13S0 : List SGrp :=
  [(0, [(0, 11151000), (2, 8341600)], [(1, 27020000)]), (1, [], [(3, 3882800)]), (2, [(0, 1376000)], []),
    (3, [(4, 2818)], []), (4, [(5, 6203700)], []), (5, [(6, 158470)], []),
    (6, [], [(7, 6172600)]), (7, [], [(7, 1504300)]), (8, [], [(8, 129820)]),
    (9, [(9, 44325)], [])]
def f13S1 : List SGrp :=
  [(0, [(0, 8363250), (1, 3377500)], [(2, 4170800)]), (1, [(3, 1456050)], []), (2, [(0, 1032000)], []),
    (3, [(4, 352)], []), (4, [(5, 2326387)], []), (5, [], [(6, 118852)]),
    (6, [(7, 16203075)], []), (7, [(7, 3948787)], []), (8, [(8, 1752570)], []),
    (9, [], [(9, 487575)])]
def f13S2 : List SGrp :=
  [(0, [(2, 6256200)], [(0, 2090812), (1, 3799687)]), (1, [], [(3, 2002068)]), (2, [], [(0, 258000)]),
    (3, [], [(4, 308)]), (4, [], [(5, 1453992)]), (5, [(6, 207991)], []),
    (6, [], [(7, 58736146)]), (7, [], [(7, 14314354)]), (8, [], [(8, 25412265)]),
    (9, [(9, 5850900)], [])]
def f13A0 : List AGrp :=
  [(0, [(0, 11151001), (1, 27020001), (2, 8341601)]), (1, [(3, 3882801)]), (2, [(0, 1376001)]),
    (3, [(4, 2819)]), (4, [(5, 6203701)]), (5, [(6, 158471)]),
    (6, [(7, 6172601)]), (7, [(7, 1504301)]), (8, [(8, 129821)]),
    (9, [(9, 44326)])]
def f13A1 : List AGrp :=
  [(0, [(0, 13938751), (1, 57417501), (2, 20854001)]), (1, [(3, 9221651)]), (2, [(0, 1720001)]),
    (3, [(4, 5285)]), (4, [(5, 10081013)]), (5, [(6, 435793)]),
    (6, [(7, 28548276)]), (7, [(7, 6957388)]), (8, [(8, 2012211)]),
    (9, [(9, 576226)])]
def f13A2 : List AGrp :=
  [(0, [(0, 3484688), (1, 64594688), (2, 31281001)]), (1, [(3, 12679769)]), (2, [(0, 430001)]),
    (3, [(4, 4625)]), (4, [(5, 6300633)]), (5, [(6, 762637)]),
    (6, [(7, 103487497)]), (7, [(7, 25220530)]), (8, [(8, 29177046)]),
    (9, [(9, 6914701)])]
def f13 : Unit := ⟨f13G, f13S0, f13S1, f13S2, f13A0, f13A1, f13A2⟩
def f14G : List Grp :=
  [(0, [(10461 / 10000, 0), (-24807 / 10000, 1), (18593 / 25000, 2)]),
    (1, [(-52579 / 100000, 3)]),
    (2, [(3063 / 20000, 0)]),
    (3, [(6573 / 20000000, 4)]),
    (4, [(42089 / 50000, 5)]),
    (5, [(866 / 15625, 6)]),
    (6, [(-14711 / 20000, 7)]),
    (7, [(-18507 / 100000, 7)]),
    (8, [(-831 / 40000, 8)]),
    (9, [(2467 / 200000, 9)])]
def f14S0 : List SGrp :=
  [(0, [(0, 10461000), (2, 7437200)], [(1, 24807000)]), (1, [], [(3, 5257900)]), (2, [(0, 1531500)], []),
    (3, [(4, 3286)], []), (4, [(5, 8417800)], []), (5, [(6, 554240)], []),
    (6, [], [(7, 7355500)]), (7, [], [(7, 1850700)]), (8, [], [(8, 207750)]),
    (9, [(9, 123350)], [])]
def f14S1 : List SGrp :=
  [(0, [(0, 7845750), (1, 3100875)], [(2, 3718600)]), (1, [(3, 1971712)], []), (2, [(0, 1148625)], []),
    (3, [(4, 410)], []), (4, [(5, 3156675)], []), (5, [], [(6, 415680)]),
    (6, [(7, 19308187)], []), (7, [(7, 4858087)], []), (8, [(8, 2804625)], []),
    (9, [], [(9, 1356850)])]
def f14S2 : List SGrp :=
  [(0, [(2, 5577900)], [(0, 1961437), (1, 3488484)]), (1, [], [(3, 2711104)]), (2, [], [(0, 287156)]),
    (3, [], [(4, 359)]), (4, [], [(5, 1972921)]), (5, [(6, 727440)], []),
    (6, [], [(7, 69992179)]), (7, [], [(7, 17610567)]), (8, [], [(8, 40667062)]),
    (9, [(9, 16282200)], [])]
def f14A0 : List AGrp :=
  [(0, [(0, 10461001), (1, 24807001), (2, 7437201)]), (1, [(3, 5257901)]), (2, [(0, 1531501)]),
    (3, [(4, 3287)]), (4, [(5, 8417801)]), (5, [(6, 554241)]),
    (6, [(7, 7355501)]), (7, [(7, 1850701)]), (8, [(8, 207751)]),
    (9, [(9, 123351)])]
def f14A1 : List AGrp :=
  [(0, [(0, 13076251), (1, 52714876), (2, 18593001)]), (1, [(3, 12487513)]), (2, [(0, 1914376)]),
    (3, [(4, 6163)]), (4, [(5, 13678926)]), (5, [(6, 1524161)]),
    (6, [(7, 34019188)]), (7, [(7, 8559488)]), (8, [(8, 3220126)]),
    (9, [(9, 1603551)])]
def f14A2 : List AGrp :=
  [(0, [(0, 3269063), (1, 59304235), (2, 27889501)]), (1, [(3, 17170330)]), (2, [(0, 478594)]),
    (3, [(4, 5392)]), (4, [(5, 8549329)]), (5, [(6, 2667281)]),
    (6, [(7, 123319555)]), (7, [(7, 31028143)]), (8, [(8, 46691813)]),
    (9, [(9, 19242601)])]
def f14 : Unit := ⟨f14G, f14S0, f14S1, f14S2, f14A0, f14A1, f14A2⟩
def f15G : List Grp :=
  [(0, [(13394982112813 / 2500000000000, 36), (-12410050506119 / 2000000000000, 5)]),
    (1, [(6915120663543 / 50000000000000, 11), (-71397954896129 / 1000000000000000, 5)]),
    (10, [(15474053959733 / 1000000000000000, 1)]),
    (11, [(-14976806405771 / 100000000000000, 12)]),
    (5, [(-26368723988451 / 1000000000000000, 27), (28340651578033 / 500000000000000, 0), (-15015989507609 / 250000000000000, 3)]),
    (6, [(-4504394202713 / 10000000000000, 19), (84957680489 / 200000000000, 37)]),
    (16, [(-21997640827139 / 1000000000000000, 18)]),
    (23, [(-1049952137453 / 100000000000000, 32)]),
    (24, [(-226217991147 / 78125000000000, 32)])]
def f15S0 : List SGrp :=
  [(0, [(36, 53579928)], [(5, 62050252)]), (1, [(11, 1383024)], [(5, 713979)]), (10, [(1, 154740)], []),
    (11, [], [(12, 1497680)]), (5, [(0, 566813)], [(27, 263687), (3, 600639)]), (6, [(37, 4247884)], [(19, 4504394)]),
    (16, [], [(18, 219976)]), (23, [], [(32, 104995)]), (24, [], [(32, 28955)])]
def f15S1 : List SGrp :=
  [(0, [(36, 26789964)], [(5, 23268844)]), (1, [(11, 864390)], [(5, 267742)]), (10, [], [(1, 19342)]),
    (11, [(12, 2433731)], []), (5, [(0, 425109), (3, 225239)], [(27, 263687)]), (6, [(19, 13513182)], [(37, 13805623)]),
    (16, [(18, 879905)], []), (23, [(32, 734966)], []), (24, [(32, 202691)], [])]
def f15S2 : List SGrp :=
  [(0, [(5, 14543027)], [(36, 13394982)]), (1, [(5, 167338)], [(11, 324146)]), (10, [(1, 21760)], []),
    (11, [], [(12, 6388543)]), (5, [(27, 0)], [(0, 106277), (3, 309704)]), (6, [(37, 58673898)], [(19, 54052730)]),
    (16, [], [(18, 4399528)]), (23, [], [(32, 5879731)]), (24, [], [(32, 1621530)])]
def f15A0 : List AGrp :=
  [(0, [(36, 53579929), (5, 62050253)]), (1, [(11, 1383025), (5, 713980)]), (10, [(1, 154741)]),
    (11, [(12, 1497681)]), (5, [(27, 263688), (0, 566814), (3, 600640)]), (6, [(19, 4504395), (37, 4247885)]),
    (16, [(18, 219977)]), (23, [(32, 104996)]), (24, [(32, 28956)])]
def f15A1 : List AGrp :=
  [(0, [(36, 80369893), (5, 100831661)]), (1, [(11, 1901659), (5, 1160217)]), (10, [(1, 328824)]),
    (11, [(12, 5429093)]), (5, [(27, 263688), (0, 708517), (3, 1426520)]), (6, [(19, 22521972), (37, 22301392)]),
    (16, [(18, 1319859)]), (23, [(32, 944957)]), (24, [(32, 260604)])]
def f15A2 : List AGrp :=
  [(0, [(36, 40184947), (5, 63019788)]), (1, [(11, 713122), (5, 725136)]), (10, [(1, 369927)]),
    (11, [(12, 14251368)]), (5, [(27, 1), (0, 177130), (3, 1961464)]), (6, [(19, 90087885), (37, 94780913)]),
    (16, [(18, 6599293)]), (23, [(32, 7559656)]), (24, [(32, 2084826)])]
def f15 : Unit := ⟨f15G, f15S0, f15S1, f15S2, f15A0, f15A1, f15A2⟩
def f16G : List Grp :=
  [(0, [(88878286369701 / 100000000000000, 0), (-6219858328037 / 2500000000000, 1), (29875095387943 / 50000000000000, 2)]),
    (1, [(96501817061881 / 10000000000000000, 3)]),
    (2, [(7197042871277 / 100000000000000, 0)]),
    (3, [(4467488600039 / 20000000000000000, 4)]),
    (4, [(9279343195737 / 50000000000000, 5)]),
    (5, [(-476617100447 / 12500000000000, 6)]),
    (6, [(-7676122691503 / 50000000000000, 7)]),
    (7, [(-26726814910919 / 1000000000000000, 7)]),
    (8, [(-25675298677127 / 1000000000000000, 8)]),
    (9, [(23928575530917 / 2500000000000000, 9)])]
def f16S0 : List SGrp :=
  [(0, [(0, 8887828), (2, 5975019)], [(1, 24879433)]), (1, [(3, 96501)], []), (2, [(0, 719704)], []),
    (3, [(4, 2233)], []), (4, [(5, 1855868)], []), (5, [], [(6, 381293)]),
    (6, [], [(7, 1535224)]), (7, [], [(7, 267268)]), (8, [], [(8, 256752)]),
    (9, [(9, 95714)], [])]
def f16S1 : List SGrp :=
  [(0, [(0, 6665871), (1, 3109929)], [(2, 2987509)]), (1, [], [(3, 36188)]), (2, [(0, 539778)], []),
    (3, [(4, 279)], []), (4, [(5, 695950)], []), (5, [(6, 285970)], []),
    (6, [(7, 4029964)], []), (7, [(7, 701578)], []), (8, [(8, 3466165)], []),
    (9, [], [(9, 1052857)])]
def f16S2 : List SGrp :=
  [(0, [(2, 4481264)], [(0, 1666467), (1, 3498670)]), (1, [(3, 49758)], []), (2, [], [(0, 134944)]),
    (3, [], [(4, 244)]), (4, [], [(5, 434969)]), (5, [], [(6, 500447)]),
    (6, [], [(7, 14608620)]), (7, [], [(7, 2543223)]), (8, [], [(8, 50259397)]),
    (9, [(9, 12634287)], [])]
def f16A0 : List AGrp :=
  [(0, [(0, 8887829), (1, 24879434), (2, 5975020)]), (1, [(3, 96502)]), (2, [(0, 719705)]),
    (3, [(4, 2234)]), (4, [(5, 1855869)]), (5, [(6, 381294)]),
    (6, [(7, 1535225)]), (7, [(7, 267269)]), (8, [(8, 256753)]),
    (9, [(9, 95715)])]
def f16A1 : List AGrp :=
  [(0, [(0, 11109786), (1, 52868796), (2, 14937548)]), (1, [(3, 229192)]), (2, [(0, 899631)]),
    (3, [(4, 4189)]), (4, [(5, 3015787)]), (5, [(6, 1048558)]),
    (6, [(7, 7100414)]), (7, [(7, 1236116)]), (8, [(8, 3979672)]),
    (9, [(9, 1244286)])]
def f16A2 : List AGrp :=
  [(0, [(0, 2777447), (1, 59477396), (2, 22406322)]), (1, [(3, 315139)]), (2, [(0, 224908)]),
    (3, [(4, 3665)]), (4, [(5, 1884867)]), (5, [(6, 1834976)]),
    (6, [(7, 25738999)]), (7, [(7, 4480918)]), (8, [(8, 57705234)]),
    (9, [(9, 14931432)])]
def f16 : Unit := ⟨f16G, f16S0, f16S1, f16S2, f16A0, f16A1, f16A2⟩
def f17G : List Grp :=
  [(0, [(45277 / 50000, 0), (-4903 / 2000, 1), (53149 / 100000, 2)]),
    (1, [(24173 / 1000000, 3)]),
    (2, [(18039 / 250000, 0)]),
    (3, [(9409 / 50000000, 4)]),
    (4, [(3881 / 20000, 5)]),
    (5, [(-10817 / 250000, 6)]),
    (6, [(-6389 / 50000, 7)]),
    (7, [(-3487 / 125000, 7)]),
    (8, [(-17077 / 500000, 8)]),
    (9, [(16329 / 1000000, 9)])]
def f17S0 : List SGrp :=
  [(0, [(0, 9055400), (2, 5314900)], [(1, 24515000)]), (1, [(3, 241730)], []), (2, [(0, 721560)], []),
    (3, [(4, 1881)], []), (4, [(5, 1940500)], []), (5, [], [(6, 432680)]),
    (6, [], [(7, 1277800)]), (7, [], [(7, 278960)]), (8, [], [(8, 341540)]),
    (9, [(9, 163290)], [])]
def f17S1 : List SGrp :=
  [(0, [(0, 6791550), (1, 3064375)], [(2, 2657450)]), (1, [], [(3, 90648)]), (2, [(0, 541170)], []),
    (3, [(4, 235)], []), (4, [(5, 727687)], []), (5, [(6, 324510)], []),
    (6, [(7, 3354225)], []), (7, [(7, 732270)], []), (8, [(8, 4610790)], []),
    (9, [], [(9, 1796190)])]
def f17S2 : List SGrp :=
  [(0, [(2, 3986175)], [(0, 1697887), (1, 3447421)]), (1, [(3, 124642)], []), (2, [], [(0, 135292)]),
    (3, [], [(4, 205)]), (4, [], [(5, 454804)]), (5, [], [(6, 567892)]),
    (6, [], [(7, 12159065)]), (7, [], [(7, 2654478)]), (8, [], [(8, 66856455)]),
    (9, [(9, 21554280)], [])]
def f17A0 : List AGrp :=
  [(0, [(0, 9055401), (1, 24515001), (2, 5314901)]), (1, [(3, 241731)]), (2, [(0, 721561)]),
    (3, [(4, 1882)]), (4, [(5, 1940501)]), (5, [(6, 432681)]),
    (6, [(7, 1277801)]), (7, [(7, 278961)]), (8, [(8, 341541)]),
    (9, [(9, 163291)])]
def f17A1 : List AGrp :=
  [(0, [(0, 11319251), (1, 52094376), (2, 13287251)]), (1, [(3, 574109)]), (2, [(0, 901951)]),
    (3, [(4, 3529)]), (4, [(5, 3153313)]), (5, [(6, 1189871)]),
    (6, [(7, 5909826)]), (7, [(7, 1290191)]), (8, [(8, 5293871)]),
    (9, [(9, 2122771)])]
def f17A2 : List AGrp :=
  [(0, [(0, 2829813), (1, 58606172), (2, 19930876)]), (1, [(3, 789400)]), (2, [(0, 225488)]),
    (3, [(4, 3088)]), (4, [(5, 1970821)]), (5, [(6, 2082273)]),
    (6, [(7, 21423116)]), (7, [(7, 4676939)]), (8, [(8, 76761116)]),
    (9, [(9, 25473241)])]
def f17 : Unit := ⟨f17G, f17S0, f17S1, f17S2, f17A0, f17A1, f17A2⟩
def f18G : List Grp :=
  [(0, [(41364204374793 / 50000000000000, 36), (-2325277552073 / 1250000000000, 28), (-699938100859 / 625000000000, 38)]),
    (1, [(1954469247007 / 12500000000000, 10), (3495033794361 / 4000000000000, 2)]),
    (2, [(-36674403715731 / 100000000000000, 39)]),
    (10, [(13496973358109 / 250000000000000, 40)]),
    (11, [(10957690214499 / 10000000000000, 2)]),
    (5, [(53213037828563 / 1000000000000000, 5), (522021357233 / 40000000000000, 12)]),
    (6, [(-10269880108619 / 25000000000000, 18)]),
    (14, [(365936083603 / 2500000000000, 19)]),
    (7, [(-55726838623719 / 1000000000000000, 16)]),
    (9, [(-56008870719 / 5000000000000, 41)]),
    (24, [(-66062758068099 / 10000000000000000, 19), (23459261002269 / 5000000000000000, 33)])]
def f18S0 : List SGrp :=
  [(0, [(36, 8272840)], [(28, 18602220), (38, 11199009)]), (1, [(10, 1563575), (2, 8737584)], []), (2, [], [(39, 3667440)]),
    (10, [(40, 539878)], []), (11, [(2, 10957690)], []), (5, [(5, 532130), (12, 130505)], []),
    (6, [], [(18, 4107952)]), (14, [(19, 1463744)], []), (7, [], [(16, 557268)]),
    (9, [], [(41, 112017)]), (24, [(33, 46918)], [(19, 66062)])]
def f18S1 : List SGrp :=
  [(0, [(36, 4136420), (28, 4650555), (38, 9799133)], []), (1, [(10, 1368128)], [(2, 4368792)]), (2, [(39, 0)], []),
    (10, [(40, 134969)], []), (11, [], [(2, 5478845)]), (5, [(5, 199548)], [(12, 212071)]),
    (6, [(18, 16431808)], []), (14, [], [(19, 4391233)]), (7, [(16, 1950439)], []),
    (9, [(41, 224035)], []), (24, [(19, 198188)], [(33, 234592)])]
def f18S2 : List SGrp :=
  [(0, [], [(36, 2068210), (28, 5813193), (38, 18373375)]), (1, [(2, 6553188)], [(10, 171016)]), (2, [(39, 0)], []),
    (10, [], [(40, 101227)]), (11, [(2, 8218267)], []), (5, [(12, 556686)], [(5, 124718)]),
    (6, [], [(18, 82159040)]), (14, [(19, 17564932)], []), (7, [], [(16, 8776977)]),
    (9, [], [(41, 672106)]), (24, [(33, 1407555)], [(19, 792753)])]
def f18A0 : List AGrp :=
  [(0, [(36, 8272841), (28, 18602221), (38, 11199010)]), (1, [(10, 1563576), (2, 8737585)]), (2, [(39, 3667441)]),
    (10, [(40, 539879)]), (11, [(2, 10957691)]), (5, [(5, 532131), (12, 130506)]),
    (6, [(18, 4107953)]), (14, [(19, 1463745)]), (7, [(16, 557269)]),
    (9, [(41, 112018)]), (24, [(19, 66063), (33, 46919)])]
def f18A1 : List AGrp :=
  [(0, [(36, 12409262), (28, 41854996), (38, 32197153)]), (1, [(10, 1759023), (2, 21843962)]), (2, [(39, 7334881)]),
    (10, [(40, 944789)]), (11, [(2, 27394226)]), (5, [(5, 864712), (12, 473082)]),
    (6, [(18, 24647713)]), (14, [(19, 7318722)]), (7, [(16, 3064977)]),
    (9, [(41, 448071)]), (24, [(19, 330314), (33, 328430)])]
def f18A2 : List AGrp :=
  [(0, [(36, 6204631), (28, 52318745), (38, 60369662)]), (1, [(10, 219878), (2, 32765942)]), (2, [(39, 7334881)]),
    (10, [(40, 708592)]), (11, [(2, 41091339)]), (5, [(5, 540445), (12, 1241840)]),
    (6, [(18, 123238562)]), (14, [(19, 29274887)]), (7, [(16, 13792393)]),
    (9, [(41, 1344213)]), (24, [(19, 1321256), (33, 1970578)])]
def f18 : Unit := ⟨f18G, f18S0, f18S1, f18S2, f18A0, f18A1, f18A2⟩
def f19G : List Grp :=
  [(0, [(87641 / 100000, 0), (-20367 / 10000, 1), (10817 / 50000, 2)]),
    (1, [(-50199 / 1000000, 3)]),
    (2, [(33497 / 500000, 0)]),
    (3, [(4769 / 25000000, 4)]),
    (4, [(20227 / 100000, 5)]),
    (5, [(-11337 / 2500000, 6)]),
    (6, [(-2223 / 10000, 7)]),
    (7, [(-17357 / 500000, 7)]),
    (8, [(-2977 / 200000, 8)]),
    (9, [(37077 / 5000000, 9)])]
def f19S0 : List SGrp :=
  [(0, [(0, 8764100), (2, 2163400)], [(1, 20367000)]), (1, [], [(3, 501990)]), (2, [(0, 669940)], []),
    (3, [(4, 1907)], []), (4, [(5, 2022700)], []), (5, [], [(6, 45348)]),
    (6, [], [(7, 2223000)]), (7, [], [(7, 347140)]), (8, [], [(8, 148850)]),
    (9, [(9, 74154)], [])]
def f19S1 : List SGrp :=
  [(0, [(0, 6573075), (1, 2545875)], [(2, 1081700)]), (1, [(3, 188246)], []), (2, [(0, 502455)], []),
    (3, [(4, 238)], []), (4, [(5, 758512)], []), (5, [(6, 34011)], []),
    (6, [(7, 5835375)], []), (7, [(7, 911242)], []), (8, [(8, 2009475)], []),
    (9, [], [(9, 815694)])]
def f19S2 : List SGrp :=
  [(0, [(2, 1622550)], [(0, 1643268), (1, 2864109)]), (1, [], [(3, 258838)]), (2, [], [(0, 125613)]),
    (3, [], [(4, 208)]), (4, [], [(5, 474070)]), (5, [], [(6, 59519)]),
    (6, [], [(7, 21153234)]), (7, [], [(7, 3303254)]), (8, [], [(8, 29137387)]),
    (9, [(9, 9788328)], [])]
def f19A0 : List AGrp :=
  [(0, [(0, 8764101), (1, 20367001), (2, 2163401)]), (1, [(3, 501991)]), (2, [(0, 669941)]),
    (3, [(4, 1908)]), (4, [(5, 2022701)]), (5, [(6, 45349)]),
    (6, [(7, 2223001)]), (7, [(7, 347141)]), (8, [(8, 148851)]),
    (9, [(9, 74155)])]
def f19A1 : List AGrp :=
  [(0, [(0, 10955126), (1, 43279876), (2, 5408501)]), (1, [(3, 1192227)]), (2, [(0, 837426)]),
    (3, [(4, 3577)]), (4, [(5, 3286888)]), (5, [(6, 124708)]),
    (6, [(7, 10281376)]), (7, [(7, 1605523)]), (8, [(8, 2307176)]),
    (9, [(9, 964003)])]
def f19A2 : List AGrp :=
  [(0, [(0, 2738782), (1, 48689860), (2, 8112751)]), (1, [(3, 1639312)]), (2, [(0, 209357)]),
    (3, [(4, 3130)]), (4, [(5, 2054305)]), (5, [(6, 218238)]),
    (6, [(7, 37269985)]), (7, [(7, 5820020)]), (8, [(8, 33454038)]),
    (9, [(9, 11568025)])]
def f19 : Unit := ⟨f19G, f19S0, f19S1, f19S2, f19A0, f19A1, f19A2⟩
def f20G : List Grp :=
  [(0, [(-45579024006737 / 100000000000000, 27), (500655630197 / 400000000000, 10), (-15438231650621 / 10000000000000, 40)]),
    (10, [(20467489707221 / 1000000000000000, 39)]),
    (11, [(-34476212380781 / 100000000000000, 40)]),
    (12, [(-20858459512787 / 1000000000000000, 12)]),
    (5, [(8113707355889 / 500000000000000, 10), (-14367954550223 / 250000000000000, 28), (3892483286143 / 200000000000000, 15)]),
    (14, [(-1664784006151 / 50000000000000, 39)]),
    (21, [(-10863577372367 / 1000000000000000, 16)]),
    (16, [(-11086682622977 / 500000000000000, 18)])]
def f20S0 : List SGrp :=
  [(0, [(10, 12516390)], [(27, 4557902), (40, 15438231)]), (10, [(39, 204674)], []), (11, [], [(40, 3447621)]),
    (12, [], [(12, 208584)]), (5, [(10, 162274), (15, 194624)], [(28, 574718)]), (14, [], [(39, 332956)]),
    (21, [], [(16, 108635)]), (16, [], [(18, 221733)])]
def f20S1 : List SGrp :=
  [(0, [(10, 10951841)], [(27, 4557902), (40, 3859557)]), (10, [(39, 0)], []), (11, [], [(40, 861905)]),
    (12, [(12, 338949)], []), (5, [(10, 141989), (28, 143679)], [(15, 194624)]), (14, [(39, 0)], []),
    (21, [(16, 380225)], []), (16, [(18, 886934)], [])]
def f20S2 : List SGrp :=
  [(0, [(27, 0), (40, 2894668)], [(10, 1368980)]), (10, [(39, 0)], []), (11, [(40, 646428)], []),
    (12, [], [(12, 889743)]), (5, [(15, 389248)], [(10, 17748), (28, 179599)]), (14, [(39, 0)], []),
    (21, [], [(16, 1711013)]), (16, [], [(18, 4434673)])]
def f20A0 : List AGrp :=
  [(0, [(27, 4557903), (10, 12516391), (40, 15438232)]), (10, [(39, 204675)]), (11, [(40, 3447622)]),
    (12, [(12, 208585)]), (5, [(10, 162275), (28, 574719), (15, 194625)]), (14, [(39, 332957)]),
    (21, [(16, 108636)]), (16, [(18, 221734)])]
def f20A1 : List AGrp :=
  [(0, [(27, 4557903), (10, 14080940), (40, 27016906)]), (10, [(39, 409350)]), (11, [(40, 6033338)]),
    (12, [(12, 756120)]), (5, [(10, 182559), (28, 1293116), (15, 583873)]), (14, [(39, 665914)]),
    (21, [(16, 597497)]), (16, [(18, 1330402)])]
def f20A2 : List AGrp :=
  [(0, [(27, 1), (10, 1760118), (40, 20262680)]), (10, [(39, 409350)]), (11, [(40, 4525003)]),
    (12, [(12, 1984813)]), (5, [(10, 22820), (28, 1616395), (15, 1167745)]), (14, [(39, 665914)]),
    (21, [(16, 2688736)]), (16, [(18, 6652010)])]
def f20 : Unit := ⟨f20G, f20S0, f20S1, f20S2, f20A0, f20A1, f20A2⟩
def f21G : List Grp :=
  [(0, [(85095714803969 / 100000000000000, 0), (-600080573587 / 250000000000, 1), (27063920738233 / 50000000000000, 2)]),
    (1, [(8459885346269 / 500000000000000, 3)]),
    (2, [(13765193003807 / 200000000000000, 0)]),
    (3, [(10714016407669 / 50000000000000000, 4)]),
    (4, [(2178736915249 / 12500000000000, 5)]),
    (5, [(-16827247802097 / 500000000000000, 6)]),
    (6, [(-13526799857691 / 100000000000000, 7)]),
    (7, [(-128026178059 / 7812500000000, 7)]),
    (8, [(-999506674059 / 40000000000000, 8)]),
    (9, [(88769204815709 / 10000000000000000, 9)])]
def f21S0 : List SGrp :=
  [(0, [(0, 8509571), (2, 5412784)], [(1, 24003222)]), (1, [(3, 169197)], []), (2, [(0, 688259)], []),
    (3, [(4, 2142)], []), (4, [(5, 1742989)], []), (5, [], [(6, 336544)]),
    (6, [], [(7, 1352679)]), (7, [], [(7, 163873)]), (8, [], [(8, 249876)]),
    (9, [(9, 88769)], [])]
def f21S1 : List SGrp :=
  [(0, [(0, 6382178), (1, 3000402)], [(2, 2706392)]), (1, [], [(3, 63449)]), (2, [(0, 516194)], []),
    (3, [(4, 267)], []), (4, [(5, 653621)], []), (5, [(6, 252408)], []),
    (6, [(7, 3550784)], []), (7, [(7, 430167)], []), (8, [(8, 3373335)], []),
    (9, [], [(9, 976461)])]
def f21S2 : List SGrp :=
  [(0, [(2, 4059588)], [(0, 1595544), (1, 3375453)]), (1, [(3, 87242)], []), (2, [], [(0, 129048)]),
    (3, [], [(4, 234)]), (4, [], [(5, 408513)]), (5, [], [(6, 441715)]),
    (6, [], [(7, 12871595)]), (7, [], [(7, 1559358)]), (8, [], [(8, 48913357)]),
    (9, [(9, 11717535)], [])]
def f21A0 : List AGrp :=
  [(0, [(0, 8509572), (1, 24003223), (2, 5412785)]), (1, [(3, 169198)]), (2, [(0, 688260)]),
    (3, [(4, 2143)]), (4, [(5, 1742990)]), (5, [(6, 336545)]),
    (6, [(7, 1352680)]), (7, [(7, 163874)]), (8, [(8, 249877)]),
    (9, [(9, 88770)])]
def f21A1 : List AGrp :=
  [(0, [(0, 10636965), (1, 51006849), (2, 13531961)]), (1, [(3, 401845)]), (2, [(0, 860325)]),
    (3, [(4, 4018)]), (4, [(5, 2832358)]), (5, [(6, 925499)]),
    (6, [(7, 6256145)]), (7, [(7, 757915)]), (8, [(8, 3873089)]),
    (9, [(9, 1154000)])]
def f21A2 : List AGrp :=
  [(0, [(0, 2659242), (1, 57382705), (2, 20297941)]), (1, [(3, 552537)]), (2, [(0, 215082)]),
    (3, [(4, 3516)]), (4, [(5, 1770224)]), (5, [(6, 1619623)]),
    (6, [(7, 22678526)]), (7, [(7, 2747442)]), (8, [(8, 56159782)]),
    (9, [(9, 13847996)])]
def f21 : Unit := ⟨f21G, f21S0, f21S1, f21S2, f21A0, f21A1, f21A2⟩
def d1G : List Grp :=
  [(0, [(-19607797103467 / 2000000000000000, 27)]),
    (10, [(8497454028601 / 20000000000000000, 54)]),
    (25, [(-17400107288071 / 500000000000000, 60)]),
    (26, [(-1666726626737 / 12500000000000, 61)]),
    (35, [(-11993694974627 / 1000000000000000, 27)]),
    (30, [(1081927808987 / 15625000000000, 40), (-31022508148249 / 100000000000000, 62), (12247745876613 / 50000000000000, 63)]),
    (31, [(22369816716981 / 100000000000000, 37)])]
def d1S0 : List SGrp :=
  [(0, [], [(27, 98038)]), (10, [(54, 4248)], []), (25, [], [(60, 348002)]),
    (26, [], [(61, 1333381)]), (35, [], [(27, 119936)]), (30, [(40, 692433), (63, 2449549)], [(62, 3102250)]),
    (31, [(37, 2236981)], [])]
def d1S1 : List SGrp :=
  [(0, [], [(27, 98038)]), (10, [], [(54, 3611)]), (25, [(60, 2383814)], []),
    (26, [(61, 5866877)], []), (35, [], [(27, 119936)]), (30, [(40, 173108), (62, 5584051)], [(63, 8450944)]),
    (31, [], [(37, 7270190)])]
def d1S2 : List SGrp :=
  [(0, [(27, 0)], []), (10, [(54, 6681)], []), (25, [], [(60, 18712945)]),
    (26, [], [(61, 31681139)]), (35, [(27, 0)], []), (30, [(63, 37606703)], [(40, 129831), (62, 15635344)]),
    (31, [(37, 30898309)], [])]
def d1A0 : List AGrp :=
  [(0, [(27, 98039)]), (10, [(54, 4249)]), (25, [(60, 348003)]),
    (26, [(61, 1333382)]), (35, [(27, 119937)]), (30, [(40, 692434), (62, 3102251), (63, 2449550)]),
    (31, [(37, 2236982)])]
def d1A1 : List AGrp :=
  [(0, [(27, 98039)]), (10, [(54, 12109)]), (25, [(60, 3079819)]),
    (26, [(61, 8533641)]), (35, [(27, 119937)]), (30, [(40, 1211760), (62, 11788554), (63, 13350044)]),
    (31, [(37, 11744154)])]
def d1A2 : List AGrp :=
  [(0, [(27, 1)]), (10, [(54, 22402)]), (25, [(60, 24176580)]),
    (26, [(61, 46081658)]), (35, [(27, 1)]), (30, [(40, 908820), (62, 33007949), (63, 59407692)]),
    (31, [(37, 49912654)])]
def d1 : Unit := ⟨d1G, d1S0, d1S1, d1S2, d1A0, d1A1, d1A2⟩
def d2G : List Grp :=
  [(0, [(-5429693677471 / 50000000000000, 64)]),
    (1, [(80228576727389 / 1000000000000000, 53)]),
    (2, [(-93303985115717 / 10000000000000000, 27)]),
    (25, [(5123659250731 / 125000000000000, 55)]),
    (29, [(-12169009886247 / 50000000000000, 65)]),
    (31, [(5963836820281 / 25000000000000, 32)])]
def d2S0 : List SGrp :=
  [(0, [], [(64, 1085938)]), (1, [(53, 802285)], []), (2, [], [(27, 93303)]),
    (25, [(55, 409892)], []), (29, [], [(65, 2433801)]), (31, [(32, 2385534)], [])]
def d2S1 : List SGrp :=
  [(0, [(64, 1737501)], []), (1, [], [(53, 762171)]), (2, [], [(27, 93303)]),
    (25, [], [(55, 1209183)]), (29, [(65, 16914923)], []), (31, [], [(32, 16698743)])]
def d2S2 : List SGrp :=
  [(0, [], [(64, 4517505)]), (1, [(53, 1486234)], []), (2, [(27, 0)], []),
    (25, [(55, 4776275)], []), (29, [], [(65, 134473643)]), (31, [(32, 133589944)], [])]
def d2A0 : List AGrp :=
  [(0, [(64, 1085939)]), (1, [(53, 802286)]), (2, [(27, 93304)]),
    (25, [(55, 409893)]), (29, [(65, 2433802)]), (31, [(32, 2385535)])]
def d2A1 : List AGrp :=
  [(0, [(64, 3909380)]), (1, [(53, 2366744)]), (2, [(27, 93304)]),
    (25, [(55, 2028970)]), (29, [(65, 21782528)]), (31, [(32, 21469813)])]
def d2A2 : List AGrp :=
  [(0, [(64, 10164387)]), (1, [(53, 4615149)]), (2, [(27, 1)]),
    (25, [(55, 8014428)]), (29, [(65, 173171096)]), (31, [(32, 171758501)])]
def d2 : Unit := ⟨d2G, d2S0, d2S1, d2S2, d2A0, d2A1, d2A2⟩
def d3G : List Grp :=
  [(2, [(-40463025149373 / 50000000000000000, 42)]),
    (10, [(-75381925080059 / 100000000000000000, 43)]),
    (25, [(-41618768891219 / 1000000000000000, 44)]),
    (26, [(-23452173681569 / 100000000000000, 45), (7001920292293 / 50000000000000, 46)]),
    (27, [(31640872403869 / 500000000000000, 47)]),
    (28, [(-34660425848809 / 1000000000000000, 48)]),
    (29, [(-23918747334251 / 100000000000000, 49)]),
    (30, [(19855255066891 / 10000000000000000, 50)]),
    (31, [(12355549234311 / 2000000000000, 51), (-13915071654221 / 2000000000000, 52), (2657546326597 / 2500000000000, 53)])]
def d3S0 : List SGrp :=
  [(2, [], [(42, 8092)]), (10, [], [(43, 7538)]), (25, [], [(44, 416187)]),
    (26, [(46, 1400384)], [(45, 2345217)]), (27, [(47, 632817)], []), (28, [], [(48, 346604)]),
    (29, [], [(49, 2391874)]), (30, [(50, 19855)], []), (31, [(51, 61777746), (53, 10630185)], [(52, 69575358)])]
def d3S1 : List SGrp :=
  [(2, [], [(42, 2832)]), (10, [(43, 4146)], []), (25, [(44, 873994)], []),
    (26, [(45, 11491565)], [(46, 8472323)]), (27, [], [(47, 1487121)]), (28, [(48, 69320)], []),
    (29, [(49, 11480998)], []), (30, [], [(50, 33753)]), (31, [(51, 33977760)], [(52, 31308911), (53, 10098676)])]
def d3S2 : List SGrp :=
  [(2, [(42, 1841)], []), (10, [], [(43, 6426)]), (25, [], [(44, 2709381)]),
    (26, [(46, 59729881)], [(45, 67800234)]), (27, [(47, 4981855)], []), (28, [], [(48, 83185)]),
    (29, [], [(49, 66589792)]), (30, [(50, 91135)], []), (31, [(52, 17219901), (53, 19692418)], [(51, 15289992)])]
def d3A0 : List AGrp :=
  [(2, [(42, 8093)]), (10, [(43, 7539)]), (25, [(44, 416188)]),
    (26, [(45, 2345218), (46, 1400385)]), (27, [(47, 632818)]), (28, [(48, 346605)]),
    (29, [(49, 2391875)]), (30, [(50, 19856)]), (31, [(51, 61777747), (52, 69575359), (53, 10630186)])]
def d3A1 : List AGrp :=
  [(2, [(42, 13353)]), (10, [(43, 19223)]), (25, [(44, 1706370)]),
    (26, [(45, 16182000), (46, 11273092)]), (27, [(47, 2752756)]), (28, [(48, 762530)]),
    (29, [(49, 16264749)]), (30, [(50, 73465)]), (31, [(51, 89577732), (52, 107841806), (53, 31359047)])]
def d3A2 : List AGrp :=
  [(2, [(42, 8680)]), (10, [(43, 29795)]), (25, [(44, 5289746)]),
    (26, [(45, 95473800), (46, 79475297)]), (27, [(47, 9221733)]), (28, [(48, 915036)]),
    (29, [(49, 94335540)]), (30, [(50, 198354)]), (31, [(51, 40309980), (52, 59312993), (53, 61150141)])]
def d3 : Unit := ⟨d3G, d3S0, d3S1, d3S2, d3A0, d3A1, d3A2⟩
def d4G : List Grp :=
  [(2, [(859151872411 / 62500000000000, 54), (-4651563258097 / 625000000000000, 55)]),
    (10, [(-9103320042737 / 2000000000000000, 27), (-54546603350237 / 10000000000000000, 54), (23682016824471 / 10000000000000000, 56)]),
    (32, [(9003881860719 / 50000000000000, 57)]),
    (33, [(-22386971466243 / 50000000000000, 56)]),
    (34, [(96636874441 / 5000000000000, 58)]),
    (30, [(-1914512362789 / 6250000000000, 59)])]
def d4S0 : List SGrp :=
  [(2, [(54, 137464)], [(55, 74425)]), (10, [(56, 23682)], [(27, 45516), (54, 54546)]), (32, [(57, 1800776)], []),
    (33, [], [(56, 4477394)]), (34, [(58, 193273)], []), (30, [], [(59, 3063219)])]
def d4S1 : List SGrp :=
  [(2, [(55, 219553)], [(54, 116844)]), (10, [(54, 46364)], [(27, 45516), (56, 67493)]), (32, [], [(57, 7653299)]),
    (33, [(56, 12760573)], []), (34, [(58, 154618)], []), (30, [(59, 16847708)], [])]
def d4S2 : List SGrp :=
  [(2, [(54, 216162)], [(55, 867237)]), (10, [(27, 0), (56, 259850)], [(54, 85774)]), (32, [(57, 40179822)], []),
    (33, [], [(56, 49128208)]), (34, [], [(58, 30923)]), (30, [], [(59, 109510107)])]
def d4A0 : List AGrp :=
  [(2, [(54, 137465), (55, 74426)]), (10, [(27, 45517), (54, 54547), (56, 23683)]), (32, [(57, 1800777)]),
    (33, [(56, 4477395)]), (34, [(58, 193274)]), (30, [(59, 3063220)])]
def d4A1 : List AGrp :=
  [(2, [(54, 391774), (55, 368404)]), (10, [(27, 45517), (54, 155458), (56, 114858)]), (32, [(57, 11254853)]),
    (33, [(56, 21715363)]), (34, [(58, 231929)]), (30, [(59, 22974149)])]
def d4A2 : List AGrp :=
  [(2, [(54, 724781), (55, 1455196)]), (10, [(27, 1), (54, 287597), (56, 442203)]), (32, [(57, 59087975)]),
    (33, [(56, 83604145)]), (34, [(58, 46386)]), (30, [(59, 149331965)])]
def d4 : Unit := ⟨d4G, d4S0, d4S1, d4S2, d4A0, d4A1, d4A2⟩
def d5G : List Grp :=
  [(0, [(1232441152461536904158949 / 625000000000000000000000, 39), (-7695546045917108660971983 / 1250000000000000000000000, 43), (2306317802850815956869033 / 625000000000000000000000, 73)]),
    (1, [(-7061276441071876522251357 / 12500000000000000000000000, 0), (41580106247838660378651 / 39062500000000000000000, 74)]),
    (2, [(546463700437325572364103 / 2500000000000000000000000, 27), (-189240562663695086370687 / 500000000000000000000000, 28)]),
    (10, [(-991926343730465051123817 / 12500000000000000000000000, 27), (71298575723922090454953 / 781250000000000000000000, 75), (5351697547114047471076473 / 125000000000000000000000000000, 61)])]
def d5S0 : List SGrp :=
  [(0, [(39, 19719058), (73, 36901084)], [(43, 61564368)]), (1, [(74, 10644507)], [(0, 5649021)]), (2, [(27, 2185854)], [(28, 3784811)]),
    (10, [(75, 912621), (61, 428)], [(27, 793541)])]
def d5S1 : List SGrp :=
  [(0, [(39, 0), (43, 33860402)], [(73, 25830759)]), (1, [], [(0, 4236765), (74, 3725577)]), (2, [(27, 2185854), (28, 946202)], []),
    (10, [(75, 273786)], [(27, 793541), (61, 1883)])]
def d5S2 : List SGrp :=
  [(0, [(39, 0), (73, 43912290)], [(43, 52483624)]), (1, [(0, 1059191), (74, 5029529)], []), (2, [(27, 0)], [(28, 1182753)]),
    (10, [(27, 0), (61, 10172)], [(75, 191650)])]
def d5A0 : List AGrp :=
  [(0, [(39, 19719059), (43, 61564369), (73, 36901085)]), (1, [(0, 5649022), (74, 10644508)]), (2, [(27, 2185855), (28, 3784812)]),
    (10, [(27, 793542), (75, 912622), (61, 429)])]
def d5A1 : List AGrp :=
  [(0, [(39, 39438117), (43, 156989140), (73, 99632930)]), (1, [(0, 7061277), (74, 25014592)]), (2, [(27, 2185855), (28, 8515826)]),
    (10, [(27, 793542), (75, 1551458), (61, 2741)])]
def d5A2 : List AGrp :=
  [(0, [(39, 39438117), (43, 243333166), (73, 169375980)]), (1, [(0, 1765320), (74, 33769700)]), (2, [(27, 1), (28, 10644782)]),
    (10, [(27, 1), (75, 1086020), (61, 14797)])]
def d5 : Unit := ⟨d5G, d5S0, d5S1, d5S2, d5A0, d5A1, d5A2⟩
def d6G : List Grp :=
  [(0, [(12787388422059 / 5000000000000, 39), (-79846357136353 / 10000000000000, 43), (23929565732903 / 5000000000000, 73)]),
    (1, [(-73265392369587 / 100000000000000, 0), (431420979541 / 312500000000, 74)]),
    (2, [(5669920695273 / 20000000000000, 27), (-1963495437617 / 4000000000000, 28)]),
    (10, [(-10291888921447 / 100000000000000, 27), (739769667623 / 6250000000000, 75), (55527385721943 / 1000000000000000000, 61)])]
def d6S0 : List SGrp :=
  [(0, [(39, 25574776), (73, 47859131)], [(43, 79846357)]), (1, [(74, 13805471)], [(0, 7326539)]), (2, [(27, 2834960)], [(28, 4908738)]),
    (10, [(75, 1183631), (61, 555)], [(27, 1029188)])]
def d6S1 : List SGrp :=
  [(0, [(39, 0), (43, 43915496)], [(73, 33501392)]), (1, [], [(0, 5494904), (74, 4831914)]), (2, [(27, 2834960), (28, 1227184)], []),
    (10, [(75, 355089)], [(27, 1029188), (61, 2443)])]
def d6S2 : List SGrp :=
  [(0, [(39, 0), (73, 56952366)], [(43, 68069019)]), (1, [(0, 1373726), (74, 6523085)], []), (2, [(27, 0)], [(28, 1533980)]),
    (10, [(27, 0), (61, 13193)], [(75, 248562)])]
def d6A0 : List AGrp :=
  [(0, [(39, 25574777), (43, 79846358), (73, 47859132)]), (1, [(0, 7326540), (74, 13805472)]), (2, [(27, 2834961), (28, 4908739)]),
    (10, [(27, 1029189), (75, 1183632), (61, 556)])]
def d6A1 : List AGrp :=
  [(0, [(39, 51149554), (43, 203608211), (73, 129219655)]), (1, [(0, 9158175), (74, 32442858)]), (2, [(27, 2834961), (28, 11044662)]),
    (10, [(27, 1029189), (75, 2012174), (61, 3554)])]
def d6A2 : List AGrp :=
  [(0, [(39, 51149554), (43, 315592727), (73, 219673414)]), (1, [(0, 2289544), (74, 43797858)]), (2, [(27, 1), (28, 13805828)]),
    (10, [(27, 1), (75, 1408522), (61, 19191)])]
def d6 : Unit := ⟨d6G, d6S0, d6S1, d6S2, d6A0, d6A1, d6A2⟩
def d7G : List Grp :=
  [(0, [(-12578567485967 / 50000000000000, 15)]),
    (2, [(-62203841111983 / 10000000000000000, 72), (22212578796099 / 250000000000000, 6)]),
    (10, [(-35592212573239 / 1000000000000000, 66)])]
def d7S0 : List SGrp :=
  [(0, [], [(15, 2515713)]), (2, [(6, 888503)], [(72, 62203)]), (10, [], [(66, 355922)])]
def d7S1 : List SGrp :=
  [(0, [(15, 2515713)], []), (2, [], [(72, 124407), (6, 666377)]), (10, [(66, 142368)], [])]
def d7S2 : List SGrp :=
  [(0, [], [(15, 5031426)]), (2, [(6, 1166160)], [(72, 124407)]), (10, [], [(66, 199316)])]
def d7A0 : List AGrp :=
  [(0, [(15, 2515714)]), (2, [(72, 62204), (6, 888504)]), (10, [(66, 355923)])]
def d7A1 : List AGrp :=
  [(0, [(15, 7547141)]), (2, [(72, 124408), (6, 2443384)]), (10, [(66, 854214)])]
def d7A2 : List AGrp :=
  [(0, [(15, 15094281)]), (2, [(72, 124408), (6, 4275922)]), (10, [(66, 1195899)])]
def d7 : Unit := ⟨d7G, d7S0, d7S1, d7S2, d7A0, d7A1, d7A2⟩
def d8G : List Grp :=
  [(1, [(28661625028399 / 100000000000000, 54)]),
    (2, [(-10919833861247 / 100000000000000, 66)]),
    (32, [(-1137403208227 / 1000000000000, 67)]),
    (33, [(38290272118679 / 50000000000000, 68)]),
    (34, [(42638000926819 / 10000000000000000, 32)]),
    (30, [(8836769102267 / 50000000000000, 30)])]
def d8S0 : List SGrp :=
  [(1, [(54, 2866162)], []), (2, [], [(66, 1091983)]), (32, [], [(67, 11374032)]),
    (33, [(68, 7658054)], []), (34, [(32, 42638)], []), (30, [(30, 1767353)], [])]
def d8S1 : List SGrp :=
  [(1, [], [(54, 2436238)]), (2, [(66, 436793)], []), (32, [(67, 25022870)], []),
    (33, [], [(68, 11487081)]), (34, [], [(32, 298466)]), (30, [], [(30, 4860223)])]
def d8S2 : List SGrp :=
  [(1, [(54, 4507040)], []), (2, [], [(66, 611510)]), (32, [], [(67, 80073185)]),
    (33, [(68, 28717704)], []), (34, [(32, 2387728)], []), (30, [(30, 18225836)], [])]
def d8A0 : List AGrp :=
  [(1, [(54, 2866163)]), (2, [(66, 1091984)]), (32, [(67, 11374033)]),
    (33, [(68, 7658055)]), (34, [(32, 42639)]), (30, [(30, 1767354)])]
def d8A1 : List AGrp :=
  [(1, [(54, 8168564)]), (2, [(66, 2620761)]), (32, [(67, 47770935)]),
    (33, [(68, 26803191)]), (34, [(32, 383743)]), (30, [(30, 8394931)])]
def d8A2 : List AGrp :=
  [(1, [(54, 15111842)]), (2, [(66, 3669065)]), (32, [(67, 152866992)]),
    (33, [(68, 67007977)]), (34, [(32, 3069937)]), (30, [(30, 31480990)])]
def d8 : Unit := ⟨d8G, d8S0, d8S1, d8S2, d8A0, d8A1, d8A2⟩
def d9G : List Grp :=
  [(1, [(-2961032382913 / 6250000000000, 27), (48961193461001 / 100000000000000, 69)]),
    (2, [(-11402212418107 / 2000000000000000, 27)]),
    (25, [(-499170501033 / 2500000000000, 70)]),
    (26, [(-69411103101723 / 100000000000000, 71)]),
    (27, [(69226192739021 / 100000000000000, 63)])]
def d9S0 : List SGrp :=
  [(1, [(69, 4896119)], [(27, 4737651)]), (2, [], [(27, 57011)]), (25, [], [(70, 1996682)]),
    (26, [], [(71, 6941110)]), (27, [(63, 6922619)], [])]
def d9S1 : List SGrp :=
  [(1, [(69, 4651313)], [(27, 4737651)]), (2, [], [(27, 57011)]), (25, [(70, 5291207)], []),
    (26, [(71, 27070330)], []), (27, [], [(63, 23883036)])]
def d9S2 : List SGrp :=
  [(1, [(27, 0)], [(69, 232565)]), (2, [(27, 0)], []), (25, [], [(70, 19312906)]),
    (26, [], [(71, 132644618)]), (27, [(63, 106279512)], [])]
def d9A0 : List AGrp :=
  [(1, [(27, 4737652), (69, 4896120)]), (2, [(27, 57012)]), (25, [(70, 1996683)]),
    (26, [(71, 6941111)]), (27, [(63, 6922620)])]
def d9A1 : List AGrp :=
  [(1, [(27, 4737652), (69, 5140926)]), (2, [(27, 57012)]), (25, [(70, 9284572)]),
    (26, [(71, 40952551)]), (27, [(63, 37728276)])]
def d9A2 : List AGrp :=
  [(1, [(27, 1), (69, 257047)]), (2, [(27, 1)]), (25, [(70, 33888686)]),
    (26, [(71, 200667500)]), (27, [(63, 167890824)])]
def d9 : Unit := ⟨d9G, d9S0, d9S1, d9S2, d9A0, d9A1, d9A2⟩
def d10G : List Grp :=
  [(0, [(33355842636577483088877 / 100000000000000000000000, 39), (-208278847551837331049959 / 200000000000000000000000, 43), (62420159817107228054609 / 100000000000000000000000, 73)]),
    (1, [(-191112431868519729549861 / 2000000000000000000000000, 0), (1125359598748357595923 / 6250000000000000000000, 74)]),
    (2, [(14789961502002114802719 / 400000000000000000000000, 27), (-5121768626485874012951 / 80000000000000000000000, 28)]),
    (10, [(-26846343910592235463441 / 2000000000000000000000000, 27), (1929685703296466674769 / 125000000000000000000000, 75), (144842924843557579533729 / 20000000000000000000000000000, 61)])]
def d10S0 : List SGrp :=
  [(0, [(39, 3335584), (73, 6242015)], [(43, 10413942)]), (1, [(74, 1800575)], [(0, 955562)]), (2, [(27, 369749)], [(28, 640221)]),
    (10, [(75, 154374), (61, 72)], [(27, 134231)])]
def d10S1 : List SGrp :=
  [(0, [(39, 0), (43, 5727668)], [(73, 4369411)]), (1, [], [(0, 716671), (74, 630201)]), (2, [(27, 369749), (28, 160055)], []),
    (10, [(75, 46312)], [(27, 134231), (61, 318)])]
def d10S2 : List SGrp :=
  [(0, [(39, 0), (73, 7427999)], [(43, 8877885)]), (1, [(0, 179167), (74, 850771)], []), (2, [(27, 0)], [(28, 200069)]),
    (10, [(27, 0), (61, 1720)], [(75, 32418)])]
def d10A0 : List AGrp :=
  [(0, [(39, 3335585), (43, 10413943), (73, 6242016)]), (1, [(0, 955563), (74, 1800576)]), (2, [(27, 369750), (28, 640222)]),
    (10, [(27, 134232), (75, 154375), (61, 73)])]
def d10A1 : List AGrp :=
  [(0, [(39, 6671169), (43, 26555554), (73, 16853444)]), (1, [(0, 1194453), (74, 4231353)]), (2, [(27, 369750), (28, 1440498)]),
    (10, [(27, 134232), (75, 262438), (61, 464)])]
def d10A2 : List AGrp :=
  [(0, [(39, 6671169), (43, 41161108), (73, 28650854)]), (1, [(0, 298614), (74, 5712326)]), (2, [(27, 1), (28, 1800622)]),
    (10, [(27, 1), (75, 183707), (61, 2503)])]
def d10 : Unit := ⟨d10G, d10S0, d10S1, d10S2, d10A0, d10A1, d10A2⟩
def d11G : List Grp :=
  [(0, [(1666403714264646023772891 / 2500000000000000000000000, 39), (-10405272891608590682045297 / 5000000000000000000000000, 43), (3118409787979893854676247 / 2500000000000000000000000, 73)]),
    (1, [(-9547666649518869200465763 / 50000000000000000000000000, 0), (56221137498148737705509 / 156250000000000000000000, 74)]),
    (2, [(738882451548113093392377 / 10000000000000000000000000, 27), (-255875240681850520439233 / 2000000000000000000000000, 28)]),
    (10, [(-1341199732066707041186903 / 50000000000000000000000000, 27), (96403963118905094837527 / 3125000000000000000000000, 75), (7236117239610081613659207 / 500000000000000000000000000000, 61)])]
def d11S0 : List SGrp :=
  [(0, [(39, 6665614), (73, 12473639)], [(43, 20810545)]), (1, [(74, 3598152)], [(0, 1909533)]), (2, [(27, 738882)], [(28, 1279376)]),
    (10, [(75, 308492), (61, 144)], [(27, 268239)])]
def d11S1 : List SGrp :=
  [(0, [(39, 0), (43, 11445800)], [(73, 8731547)]), (1, [], [(0, 1432149), (74, 1259353)]), (2, [(27, 738882), (28, 319844)], []),
    (10, [(75, 92547)], [(27, 268239), (61, 636)])]
def d11S2 : List SGrp :=
  [(0, [(39, 0), (73, 14843630)], [(43, 17740990)]), (1, [(0, 358037), (74, 1700127)], []), (2, [(27, 0)], [(28, 399805)]),
    (10, [(27, 0), (61, 3438)], [(75, 64783)])]
def d11A0 : List AGrp :=
  [(0, [(39, 6665615), (43, 20810546), (73, 12473640)]), (1, [(0, 1909534), (74, 3598153)]), (2, [(27, 738883), (28, 1279377)]),
    (10, [(27, 268240), (75, 308493), (61, 145)])]
def d11A1 : List AGrp :=
  [(0, [(39, 13331230), (43, 53066892), (73, 33678826)]), (1, [(0, 2386917), (74, 8455660)]), (2, [(27, 738883), (28, 2878597)]),
    (10, [(27, 268240), (75, 524438), (61, 927)])]
def d11A2 : List AGrp :=
  [(0, [(39, 13331230), (43, 82253683), (73, 57254004)]), (1, [(0, 596730), (74, 11415140)]), (2, [(27, 1), (28, 3598246)]),
    (10, [(27, 1), (75, 367107), (61, 5002)])]
def d11 : Unit := ⟨d11G, d11S0, d11S1, d11S2, d11A0, d11A1, d11A2⟩
def d12G : List Grp :=
  [(0, [(720109178513087091236403 / 1000000000000000000000000, 39), (-4496468922890785104071801 / 2000000000000000000000000, 43), (1347569914461161859843151 / 1000000000000000000000000, 73)]),
    (1, [(-4125868376821162584253179 / 20000000000000000000000000, 0), (24295047347952331950797 / 62500000000000000000000, 74)]),
    (2, [(319295996910834524805441 / 4000000000000000000000000, 27), (-110572310774376549647689 / 800000000000000000000000, 28)]),
    (10, [(-579577583158906722790799 / 20000000000000000000000000, 27), (41659399875734853645391 / 1250000000000000000000000, 75), (3126970011189295199640831 / 200000000000000000000000000000, 61)])]
def d12S0 : List SGrp :=
  [(0, [(39, 7201091), (73, 13475699)], [(43, 22482344)]), (1, [(74, 3887207)], [(0, 2062934)]), (2, [(27, 798239)], [(28, 1382153)]),
    (10, [(75, 333275), (61, 156)], [(27, 289788)])]
def d12S1 : List SGrp :=
  [(0, [(39, 0), (43, 12365289)], [(73, 9432989)]), (1, [], [(0, 1547200), (74, 1360522)]), (2, [(27, 798239), (28, 345538)], []),
    (10, [(75, 99982)], [(27, 289788), (61, 687)])]
def d12S2 : List SGrp :=
  [(0, [(39, 0), (73, 16036081)], [(43, 19166198)]), (1, [(0, 386800), (74, 1836705)], []), (2, [(27, 0)], [(28, 431923)]),
    (10, [(27, 0), (61, 3714)], [(75, 69987)])]
def d12A0 : List AGrp :=
  [(0, [(39, 7201092), (43, 22482345), (73, 13475700)]), (1, [(0, 2062935), (74, 3887208)]), (2, [(27, 798240), (28, 1382154)]),
    (10, [(27, 289789), (75, 333276), (61, 157)])]
def d12A1 : List AGrp :=
  [(0, [(39, 14402184), (43, 57329979), (73, 36384388)]), (1, [(0, 2578668), (74, 9134938)]), (2, [(27, 798240), (28, 3109847)]),
    (10, [(27, 289789), (75, 566568), (61, 1001)])]
def d12A2 : List AGrp :=
  [(0, [(39, 14402184), (43, 88861468), (73, 61853460)]), (1, [(0, 644667), (74, 12332167)]), (2, [(27, 1), (28, 3887308)]),
    (10, [(27, 1), (75, 396598), (61, 5404)])]
def d12 : Unit := ⟨d12G, d12S0, d12S1, d12S2, d12A0, d12A1, d12A2⟩
def d13G : List Grp :=
  [(0, [(-440853024967932103788651 / 3125000000000000000000000, 39), (2752751923567762917277217 / 6250000000000000000000000, 43), (-824986392164398785800167 / 3125000000000000000000000, 73)]),
    (1, [(2525869144310712615715443 / 62500000000000000000000000, 0), (-14873501733722549913749 / 195312500000000000000000, 74)]),
    (2, [(-195473978527736150573097 / 12500000000000000000000000, 27), (67692704296911377888113 / 2500000000000000000000000, 28)]),
    (10, [(354819155710238874546983 / 62500000000000000000000000, 27), (-25504011060501476022247 / 3906250000000000000000000, 75), (-1914340532727644072648727 / 625000000000000000000000000000, 61)])]
def d13S0 : List SGrp :=
  [(0, [(43, 4404403)], [(39, 1410729), (73, 2639956)]), (1, [(0, 404139)], [(74, 761523)]), (2, [(28, 270770)], [(27, 156379)]),
    (10, [(27, 56771)], [(75, 65290), (61, 30)])]
def d13S1 : List SGrp :=
  [(0, [(39, 0), (73, 1847969)], [(43, 2422421)]), (1, [(0, 303104), (74, 266533)], []), (2, [], [(27, 156379), (28, 67692)]),
    (10, [(27, 56771), (61, 134)], [(75, 19587)])]
def d13S2 : List SGrp :=
  [(0, [(39, 0), (43, 3754753)], [(73, 3141548)]), (1, [], [(0, 75776), (74, 359819)]), (2, [(27, 0), (28, 84615)], []),
    (10, [(27, 0), (75, 13710)], [(61, 727)])]
def d13A0 : List AGrp :=
  [(0, [(39, 1410730), (43, 4404404), (73, 2639957)]), (1, [(0, 404140), (74, 761524)]), (2, [(27, 156380), (28, 270771)]),
    (10, [(27, 56772), (75, 65291), (61, 31)])]
def d13A1 : List AGrp :=
  [(0, [(39, 2821460), (43, 11231228), (73, 7127883)]), (1, [(0, 505174), (74, 1789580)]), (2, [(27, 156380), (28, 609235)]),
    (10, [(27, 56772), (75, 110994), (61, 197)])]
def d13A2 : List AGrp :=
  [(0, [(39, 2821460), (43, 17408404), (73, 12117401)]), (1, [(0, 126294), (74, 2415933)]), (2, [(27, 1), (28, 761543)]),
    (10, [(27, 1), (75, 77696), (61, 1059)])]
def d13 : Unit := ⟨d13G, d13S0, d13S1, d13S2, d13A0, d13A1, d13A2⟩
def d14G : List Grp :=
  [(0, [(3996987252545911921786851 / 50000000000000000000000000, 39), (-24957783489683280367476617 / 100000000000000000000000000, 43), (7479726589705953901189567 / 50000000000000000000000000, 73)]),
    (1, [(-22900754218808746384928043 / 1000000000000000000000000000, 0), (134850377480642035595549 / 3125000000000000000000000, 74)]),
    (2, [(1772261856287880539788497 / 200000000000000000000000000, 27), (-613734874984232763194713 / 40000000000000000000000000, 28)]),
    (10, [(-3216962484120618234787583 / 1000000000000000000000000000, 27), (231231728771804297267647 / 62500000000000000000000000, 75), (17356339353463492179830127 / 10000000000000000000000000000000, 61)])]
def d14S0 : List SGrp :=
  [(0, [(39, 799397), (73, 1495945)], [(43, 2495778)]), (1, [(74, 431521)], [(0, 229007)]), (2, [(27, 88613)], [(28, 153433)]),
    (10, [(75, 36997), (61, 17)], [(27, 32169)])]
def d14S1 : List SGrp :=
  [(0, [(39, 0), (43, 1372678)], [(73, 1047161)]), (1, [], [(0, 171755), (74, 151032)]), (2, [(27, 88613), (28, 38358)], []),
    (10, [(75, 11099)], [(27, 32169), (61, 76)])]
def d14S2 : List SGrp :=
  [(0, [(39, 0), (73, 1780174)], [(43, 2127651)]), (1, [(0, 42938), (74, 203893)], []), (2, [(27, 0)], [(28, 47948)]),
    (10, [(27, 0), (61, 412)], [(75, 7769)])]
def d14A0 : List AGrp :=
  [(0, [(39, 799398), (43, 2495779), (73, 1495946)]), (1, [(0, 229008), (74, 431522)]), (2, [(27, 88614), (28, 153434)]),
    (10, [(27, 32170), (75, 36998), (61, 18)])]
def d14A1 : List AGrp :=
  [(0, [(39, 1598795), (43, 6364235), (73, 4039053)]), (1, [(0, 286260), (74, 1014075)]), (2, [(27, 88614), (28, 345226)]),
    (10, [(27, 32170), (75, 62896), (61, 112)])]
def d14A2 : List AGrp :=
  [(0, [(39, 1598795), (43, 9864564), (73, 6866390)]), (1, [(0, 71565), (74, 1369002)]), (2, [(27, 1), (28, 431533)]),
    (10, [(27, 1), (75, 44027), (61, 600)])]
def d14 : Unit := ⟨d14G, d14S0, d14S1, d14S2, d14A0, d14A1, d14A2⟩
def d15G : List Grp :=
  [(0, [(-7048923740595697319085531 / 50000000000000000000000000, 39), (44014529303544485885656177 / 100000000000000000000000000, 43), (-13190940826183575552175127 / 50000000000000000000000000, 73)]),
    (1, [(40386836357230490700317283 / 1000000000000000000000000000, 0), (-237816627172410634328869 / 3125000000000000000000000, 74)]),
    (2, [(-3125488745400081521246457 / 200000000000000000000000000, 27), (1082357800353829760719553 / 40000000000000000000000000, 28)]),
    (10, [(5673303864674525264264023 / 1000000000000000000000000000, 27), (-407790848339673060547607 / 62500000000000000000000000, 75), (-30608932375387622320796487 / 10000000000000000000000000000000, 61)])]
def d15S0 : List SGrp :=
  [(0, [(43, 4401452)], [(39, 1409784), (73, 2638188)]), (1, [(0, 403868)], [(74, 761013)]), (2, [(28, 270589)], [(27, 156274)]),
    (10, [(27, 56733)], [(75, 65246), (61, 30)])]
def d15S1 : List SGrp :=
  [(0, [(39, 0), (73, 1846731)], [(43, 2420799)]), (1, [(0, 302901), (74, 266354)], []), (2, [], [(27, 156274), (28, 67647)]),
    (10, [(27, 56733), (61, 134)], [(75, 19573)])]
def d15S2 : List SGrp :=
  [(0, [(39, 0), (43, 3752238)], [(73, 3139443)]), (1, [], [(0, 75725), (74, 359578)]), (2, [(27, 0), (28, 84559)], []),
    (10, [(27, 0), (75, 13701)], [(61, 727)])]
def d15A0 : List AGrp :=
  [(0, [(39, 1409785), (43, 4401453), (73, 2638189)]), (1, [(0, 403869), (74, 761014)]), (2, [(27, 156275), (28, 270590)]),
    (10, [(27, 56734), (75, 65247), (61, 31)])]
def d15A1 : List AGrp :=
  [(0, [(39, 2819570), (43, 11223705), (73, 7123109)]), (1, [(0, 504836), (74, 1788382)]), (2, [(27, 156275), (28, 608827)]),
    (10, [(27, 56734), (75, 110920), (61, 196)])]
def d15A2 : List AGrp :=
  [(0, [(39, 2819570), (43, 17396743), (73, 12109284)]), (1, [(0, 126209), (74, 2414315)]), (2, [(27, 1), (28, 761033)]),
    (10, [(27, 1), (75, 77644), (61, 1058)])]
def d15 : Unit := ⟨d15G, d15S0, d15S1, d15S2, d15A0, d15A1, d15A2⟩
def pureTab : List Unit :=
  [⟨[], [], [], [], [], [], []⟩, f1, f2, f3, f4, f5, f6, f7, f8, f9, f10, f11, f12,
    f13, f14, f15, f16, f17, f18, f19, f20, f21]
def depTab : List (ℕ × ℕ × Unit) :=
  [(1, 2, d1), (1, 3, d2), (1, 4, d3), (1, 5, d4), (1, 6, d5), (1, 7, d6), (1, 15, d7), (2, 3, d8),
    (2, 4, d9), (4, 5, d10), (4, 6, d11), (4, 7, d12), (5, 6, d13), (5, 7, d14), (6, 7, d15)]
def thr0 : List (Thr × Thr × ℕ) :=
  [(⟨1241522, 2493574, 7290857, 0, 385797403, 1543554130, 434749335, 239418572, 165114799, 330469269⟩, ⟨6244083, 18745762, 6681665, 63163, 27295210, 136489566, 33659015, 29238606, 7435139, 16207726⟩, 5),
    (⟨919742, 1540160, 7207776, 0, 385797053, 1543905627, 436032320, 239683607, 165455311, 331810104⟩, ⟨12515201, 37599684, 13390385, 520468, 54617457, 342402305, 79937424, 30537478, 11283064, 42852173⟩, 5),
    (⟨620817, 674652, 7130072, 0, 385793993, 1544248505, 437337674, 239949266, 165991067, 333896316⟩, ⟨18813365, 56561785, 26550404, 1227147, 108469472, 713748188, 161824034, 31845914, 20700400, 74301370⟩, 5),
    (⟨341041, 0, 7055841, 0, 385793606, 1544625232, 438688958, 240216130, 166701921, 336632137⟩, ⟨25138572, 94446373, 47206860, 1932657, 173184342, 1171844006, 258366759, 35445376, 29915572, 100932825⟩, 5),
    (⟨76101, 0, 6982548, 0, 385802374, 1545088696, 440115797, 240484900, 167570002, 339934738⟩, ⟨36895267, 147562551, 73765115, 2636798, 242608269, 1686082409, 361934112, 47663254, 37866127, 119290270⟩, 5),
    (⟨0, 0, 6907283, 0, 385827578, 1545699986, 441652311, 240756354, 168579436, 343732199⟩, ⟨53125190, 212483088, 106225149, 3339369, 312718985, 2229870929, 466525919, 59070843, 43999049, 128341672⟩, 6),
    (⟨0, 0, 6825437, 0, 385758968, 1545658151, 442455955, 240892880, 169062253, 345462654⟩, ⟨62346801, 249370080, 124668149, 3686138, 321966569, 2324631495, 480322675, 59670599, 41476807, 110809426⟩, 7),
    (⟨0, 0, 6781904, 0, 385786608, 1546092192, 443312940, 241030731, 169635979, 347582977⟩, ⟨72306189, 289208266, 144586730, 4035812, 352960228, 2579816835, 526559458, 64202189, 43033811, 109462677⟩, 8),
    (⟨0, 0, 6735863, 0, 385822153, 1546596219, 444215280, 241169644, 170237889, 349795567⟩, ⟨83003359, 331997681, 165980742, 4384967, 382868677, 2832291816, 571177358, 68374856, 44134121, 106434550⟩, 9),
    (⟨0, 0, 6686946, 0, 385866616, 1547179313, 445167838, 241309721, 170866546, 352094357⟩, ⟨94438320, 377738361, 188850183, 4733579, 411492457, 3080243654, 613878830, 72173426, 44794571, 101909111⟩, 11),
    (⟨0, 0, 6633918, 0, 385890916, 1547615655, 445960594, 241422479, 171365801, 353887651⟩, ⟨104117501, 416455840, 208207975, 5010817, 426904685, 3225523025, 636871430, 73821878, 43983624, 93830205⟩, 12),
    (⟨0, 0, 6589509, 0, 385940246, 1548203745, 446798301, 241536270, 171900888, 355825313⟩, ⟨114268877, 457062167, 228510099, 5288827, 447461653, 3412068476, 667538794, 76301374, 43945519, 88584650⟩, 15),
    (⟨0, 0, 6541400, 0, 385963355, 1548589864, 447441151, 241621936, 172286715, 357189349⟩, ⟨122192287, 488756481, 244356287, 5495637, 455322084, 3495756428, 679265553, 81529101, 42728800, 80934249⟩, 17),
    (⟨0, 0, 6504427, 0, 386009310, 1549110430, 448117817, 241708372, 172704611, 358691195⟩, ⟨130381311, 521513291, 260733701, 5703584, 469250082, 3627097248, 700043735, 86989504, 42418657, 76351302⟩, 19),
    (⟨0, 0, 6465945, 0, 386059826, 1549671897, 448819041, 241795356, 173130409, 360216915⟩, ⟨138835948, 555332603, 277642267, 5911298, 482569609, 3755082465, 719914215, 92627022, 41993136, 71513063⟩, 23),
    (⟨0, 0, 6425905, 0, 386115116, 1550276309, 449545881, 241882911, 173563891, 361765621⟩, ⟨147556200, 590214426, 295081981, 6118773, 495267618, 3879515135, 738857529, 98441655, 41459114, 74356005⟩, 28)]
def thr1 : List (Thr × Thr × ℕ) :=
  [(⟨0, 0, 2341763, 0, 279472311, 1118206216, 356674197, 196822353, 115404457, 230996464⟩, ⟨4294682, 12893515, 4605960, 66905, 19272971, 96374328, 30837916, 29048011, 6596213, 14128555⟩, 5),
    (⟨0, 0, 2269671, 0, 279472521, 1118513334, 357686777, 197032733, 115670201, 232041232⟩, ⟨8608321, 25862893, 9230914, 141668, 43221821, 276207901, 64520301, 30068112, 8635189, 32797150⟩, 5),
    (⟨0, 0, 2202338, 0, 279469844, 1118808606, 358715700, 197243619, 116087279, 233663792⟩, ⟨12940933, 38908166, 14023116, 679406, 87499257, 575755753, 130610511, 31097392, 15842461, 56866692⟩, 5),
    (⟨0, 0, 2138322, 0, 279468363, 1119123953, 359778132, 197455467, 116640056, 235789864⟩, ⟨17292520, 52029333, 24937590, 1216035, 139701783, 945279456, 208529029, 32136989, 22895197, 77249338⟩, 5),
    (⟨0, 0, 2075726, 0, 279472955, 1119498896, 360895653, 197668826, 117314692, 238355368⟩, ⟨21663080, 77980451, 38970437, 1751380, 195702783, 1360090146, 292116804, 38542899, 28980143, 91299470⟩, 5),
    (⟨0, 0, 2012383, 0, 279489077, 1119978926, 362093106, 197884307, 118098919, 241304855⟩, ⟨28076284, 112282884, 56121637, 2285272, 252257755, 1798737456, 376531337, 47766827, 33673987, 98227074⟩, 6),
    (⟨0, 0, 1944888, 0, 279425722, 1119909464, 362717620, 197992634, 118473477, 242646897⟩, ⟨32948730, 131773239, 65866427, 2547994, 259717624, 1875178198, 387667114, 48251916, 31742572, 84805587⟩, 7),
    (⟨0, 0, 1909467, 0, 279444604, 1120241731, 363381003, 198102050, 118919078, 244293784⟩, ⟨38211022, 152823068, 76390948, 2813464, 284718771, 2081024018, 424984235, 51916046, 32934225, 83774857⟩, 8),
    (⟨0, 0, 1872364, 0, 279469207, 1120624824, 364077429, 198212303, 119386580, 246012624⟩, ⟨43863165, 175432408, 87695042, 3078463, 308844541, 2284683663, 460994803, 55289952, 33776348, 81457273⟩, 9),
    (⟨0, 0, 1833307, 0, 279500286, 1121065473, 364810437, 198323471, 119874887, 247798819⟩, ⟨49905168, 199601294, 99778708, 3342969, 331934044, 2484694870, 495458676, 58361365, 34281823, 77993714⟩, 10),
    (⟨0, 0, 1791391, 0, 279514578, 1121384874, 365419221, 198412948, 120262569, 249192144⟩, ⟨55019474, 220059302, 110006860, 3553053, 344366478, 2601885720, 514015937, 59694278, 33660970, 71809964⟩, 11),
    (⟨0, 0, 1756505, 0, 279549476, 1121826090, 366060743, 198503243, 120678274, 250698510⟩, ⟨60383298, 241515461, 120733997, 3763863, 360948878, 2752363542, 538767276, 61699119, 33631809, 67795286⟩, 13),
    (⟨0, 0, 1719004, 0, 279563209, 1122105839, 366552508, 198571214, 120977905, 251758889⟩, ⟨64569915, 258262629, 129106682, 3920410, 367289637, 2819871650, 548232039, 62135620, 32700407, 61939558⟩, 14),
    (⟨0, 0, 1690283, 0, 279595935, 1122494850, 367068894, 198639795, 121302638, 252927066⟩, ⟨68896890, 275571276, 137760088, 4078014, 378524756, 2925818568, 565001950, 63382386, 32463045, 58432028⟩, 16),
    (⟨0, 0, 1660506, 0, 279632000, 1122913797, 367603167, 198708806, 121633552, 254114124⟩, ⟨73364224, 293441409, 146694135, 4235408, 389269055, 3029058753, 581039278, 64522647, 32137378, 54729116⟩, 18),
    (⟨0, 0, 1629635, 0, 279671562, 1123364192, 368156098, 198778266, 121970486, 255319401⟩, ⟨77971919, 311873038, 155908823, 4392587, 399512011, 3129433340, 596328314, 65558157, 31728670, 50859890⟩, 20)]
def thr2 : List (Thr × Thr × ℕ) :=
  [(⟨0, 0, 0, 0, 202869701, 811754453, 292668021, 161833242, 80504627, 161156264⟩, ⟨2946245, 8845358, 3167829, 70695, 15082724, 68034589, 28786464, 29125191, 5851021, 12356434⟩, 5),
    (⟨0, 0, 0, 0, 202870401, 812023199, 293467652, 162000286, 80712131, 161970218⟩, ⟨5905767, 17743884, 6349007, 53379, 34869203, 222827618, 52082910, 29936299, 6581900, 24999991⟩, 5),
    (⟨0, 0, 0, 0, 202868216, 812278578, 294279262, 162167749, 81036654, 163231016⟩, ⟨8878596, 26695640, 9543493, 258228, 70588524, 464476374, 105429746, 30756257, 12075387, 43347003⟩, 5),
    (⟨0, 0, 0, 0, 202866266, 812544752, 295115398, 162335993, 81466093, 164881181⟩, ⟨11864732, 35700627, 13163488, 667760, 112700892, 762574104, 168323626, 31586038, 17451271, 58884032⟩, 5),
    (⟨0, 0, 0, 0, 202868248, 812851436, 295991815, 162505453, 81989752, 166871252⟩, ⟨14864177, 44758846, 20574713, 1076084, 157877425, 1097204694, 235793350, 32426617, 22089539, 69594083⟩, 5),
    (⟨0, 0, 0, 0, 202878275, 813232696, 296926650, 162676611, 82598178, 169158579⟩, ⟨17876929, 59313752, 29632816, 1483053, 203500825, 1451064444, 303930347, 38638726, 25667459, 74874818⟩, 6),
    (⟨0, 0, 0, 0, 202820634, 813149048, 297412896, 162762591, 82888206, 170197086⟩, ⟨19388294, 69607122, 34779246, 1682562, 209519046, 1512731747, 312919431, 39031213, 24194222, 64641087⟩, 7),
    (⟨0, 0, 0, 0, 202833435, 813405975, 297927558, 162849511, 83233744, 171474008⟩, ⟨20902987, 80724218, 40337545, 1884686, 229687732, 1678789377, 343040825, 41994849, 25102569, 63855433⟩, 8),
    (⟨0, 0, 0, 0, 202850383, 813699894, 298466356, 162937097, 83596257, 172806892⟩, ⟨23172728, 92665077, 46307549, 2086380, 249150255, 1843083538, 372107628, 44723738, 25744486, 62088858⟩, 9),
    (⟨0, 0, 0, 0, 202872043, 814035818, 299031874, 163025412, 83974912, 174192262⟩, ⟨26363665, 105429739, 52689254, 2287624, 267776823, 2004434633, 399926010, 47207957, 26129792, 59448754⟩, 10),
    (⟨0, 0, 0, 0, 202879626, 814270797, 299500637, 163096485, 84275383, 175272519⟩, ⟨29064683, 116234631, 58090968, 2447210, 277806300, 2098974425, 414905160, 48286062, 25656356, 54734631⟩, 11),
    (⟨0, 0, 0, 0, 202904291, 814604407, 299993306, 163168220, 84597772, 176441358⟩, ⟨31897501, 127566800, 63756235, 2607483, 291183539, 2220366713, 434883881, 49907609, 25634134, 51674453⟩, 13),
    (⟨0, 0, 0, 0, 202911712, 814807694, 300370574, 163222210, 84829976, 177263708⟩, ⟨34108609, 136411964, 68178006, 2726244, 296298807, 2274827109, 442523827, 50260674, 24923989, 47210427⟩, 14),
    (⟨0, 0, 0, 0, 202935019, 815100489, 300765816, 163276695, 85081855, 178170554⟩, ⟨36393858, 145553741, 72748070, 2845993, 305362342, 2360295960, 456060155, 51269073, 24743067, 44536843⟩, 15),
    (⟨0, 0, 0, 0, 202960778, 815415266, 301174120, 163331523, 85338558, 179092281⟩, ⟨38753250, 154992138, 77466343, 2965552, 314029933, 2443581335, 469005174, 52191327, 24494836, 41714335⟩, 16),
    (⟨0, 0, 0, 0, 202989107, 815753148, 301596048, 163386707, 85599960, 180028401⟩, ⟨41186785, 164727164, 82332823, 3084918, 322293090, 2524555076, 481346203, 53028854, 24183308, 38765058⟩, 18)]
def thr3 : List (Thr × Thr × ℕ) :=
  [(⟨0, 5004, 0, 0, 154843468, 619818916, 240338026, 133171335, 56073825, 112263278⟩, ⟨2026285, 6083463, 2183843, 74573, 13830829, 59041519, 27363541, 29471461, 5182469, 10822118⟩, 5),
    (⟨0, 0, 0, 0, 155290174, 622060305, 240970349, 133304051, 56236152, 112897979⟩, ⟨4061849, 12204168, 4377111, 61220, 28152677, 179903341, 42078287, 30126688, 5011693, 19037287⟩, 5),
    (⟨0, 0, 0, 0, 155744610, 624365057, 241611499, 133437122, 56488757, 113877483⟩, ⟨6106754, 18362237, 6579721, 55291, 56990225, 374994142, 85174312, 30790484, 9194612, 33008144⟩, 5),
    (⟨0, 0, 0, 0, 156214907, 626801389, 242270683, 133570841, 56822293, 115157428⟩, ⟨8161000, 24557671, 8791674, 249813, 90988871, 615656667, 135982330, 31463682, 13288170, 44839618⟩, 5),
    (⟨0, 0, 0, 0, 156711281, 629456784, 242959455, 133705556, 57228517, 116699737⟩, ⟨10224588, 30790471, 11012970, 562885, 127461208, 885812666, 190486650, 32147117, 16820131, 52995441⟩, 5),
    (⟨0, 0, 0, 0, 157245499, 632433969, 243691108, 133841653, 57700160, 118471689⟩, ⟨12297517, 37060637, 15666299, 874686, 164294286, 1171492861, 245529950, 32841619, 19544682, 57016800⟩, 7),
    (⟨0, 0, 0, 0, 157524806, 634028649, 244070717, 133909924, 57924426, 119273882⟩, ⟨13337482, 40209723, 18388475, 1026826, 169153239, 1221280482, 252792219, 33193283, 18421849, 49220908⟩, 7),
    (⟨0, 0, 0, 0, 157822528, 635781342, 244471214, 133979063, 58192081, 120262682⟩, ⟨14379785, 43368159, 21328585, 1181466, 185436034, 1355343538, 277125347, 34008337, 19113549, 48622689⟩, 8),
    (⟨0, 0, 0, 0, 158135897, 637670329, 244889417, 134048741, 58472863, 121294913⟩, ⟨15424423, 49032504, 24486460, 1335710, 201148733, 1487983030, 300606563, 36217973, 19602369, 47277507⟩, 9),
    (⟨0, 0, 0, 0, 158466587, 639711208, 245327218, 134119009, 58766140, 122367958⟩, ⟨16471397, 55784654, 27862096, 1489543, 216186555, 1618246659, 323079289, 38229488, 19895784, 45267143⟩, 11),
    (⟨0, 0, 0, 0, 158741733, 641438314, 245689450, 134175545, 58998685, 123204093⟩, ⟨17310657, 61500255, 30719314, 1611294, 224283756, 1694572213, 335180192, 39102465, 19535091, 41676913⟩, 12),
    (⟨0, 0, 0, 0, 159032384, 643301848, 246069214, 134232635, 59248388, 124109751⟩, ⟨18151412, 67494884, 33715964, 1733699, 235083652, 1792576162, 351319801, 40415450, 19518182, 39346687⟩, 13),
    (⟨0, 0, 0, 0, 159255399, 644745769, 246359737, 134275589, 59428044, 124746279⟩, ⟨18782958, 72173981, 36054815, 1824160, 239213472, 1836544583, 357491854, 40701345, 18977245, 35946960⟩, 14),
    (⟨0, 0, 0, 0, 159490077, 646292458, 246663439, 134318958, 59623155, 125449222⟩, ⟨19415346, 77010050, 38472142, 1915549, 246530785, 1905546552, 368427076, 41517852, 18839489, 33911132⟩, 15),
    (⟨0, 0, 0, 0, 159733225, 647915176, 246976718, 134362605, 59822020, 126163871⟩, ⟨20507675, 82003102, 40967859, 2006765, 253528446, 1972785806, 378884628, 42264603, 18650479, 31761908⟩, 16),
    (⟨0, 0, 0, 0, 159985208, 649617463, 247299987, 134406538, 60024549, 126889866⟩, ⟨21794954, 87153144, 43541965, 2097807, 260199601, 2038158880, 388854268, 42942749, 18413270, 29516158⟩, 17)]
def thr4 : List (Thr × Thr × ℕ) :=
  [(⟨466804, 941542, 0, 0, 127050879, 508555066, 197342135, 109577143, 38891012, 77873305⟩, ⟨1389068, 4170356, 1501026, 78439, 12928274, 54516916, 26443553, 30075076, 4572015, 9462513⟩, 5),
    (⟨286243, 406627, 0, 0, 127403551, 510324285, 197842307, 109682456, 39018186, 78368292⟩, ⟨2784563, 8366671, 3008769, 74518, 22725815, 145221064, 33992363, 30613791, 3796659, 14423329⟩, 5),
    (⟨118764, 0, 0, 0, 127761879, 512139821, 198349014, 109788079, 39214693, 79128171⟩, ⟨4186610, 12589192, 4523065, 74901, 46002962, 302693549, 68803373, 31160835, 6965468, 25007932⟩, 5),
    (⟨0, 0, 0, 0, 128131793, 514051410, 198869037, 109894250, 39473351, 80118870⟩, ⟨5595208, 17066491, 6043915, 75110, 73445809, 496949066, 109843232, 31716919, 10066769, 33972060⟩, 5),
    (⟨0, 0, 0, 0, 128520741, 516122800, 199410879, 110001255, 39787838, 81311224⟩, ⟨7010357, 21846054, 7571318, 170377, 102885251, 715010316, 153868519, 32282758, 12742677, 40151438⟩, 6),
    (⟨0, 0, 0, 0, 128937298, 518428821, 199984314, 110109405, 40152596, 82680261⟩, ⟨8432058, 26280742, 9105275, 410533, 132615843, 945602187, 198329095, 32859064, 14806897, 43198315⟩, 8),
    (⟨0, 0, 0, 0, 129154462, 519659139, 200281118, 110163506, 40325486, 83297688⟩, ⟨9145360, 27574364, 9874707, 527033, 136538117, 985791131, 204195694, 33151366, 13955226, 37288888⟩, 8),
    (⟨0, 0, 0, 0, 129385071, 521004683, 200593373, 110218485, 40532254, 84061096⟩, ⟨9860305, 29741312, 11256665, 645936, 149681153, 1094002920, 223850568, 33446550, 14479290, 36835722⟩, 9),
    (⟨0, 0, 0, 0, 129627089, 522449561, 200918662, 110273908, 40749128, 84858067⟩, ⟨10576888, 31914812, 12924830, 764472, 162364034, 1201065783, 242817341, 33744708, 14849647, 35816629⟩, 11),
    (⟨0, 0, 0, 0, 129881737, 524005133, 201258377, 110329816, 40975633, 85686641⟩, ⟨11295109, 34094865, 14708016, 882628, 174502184, 1306211073, 260969544, 34045927, 15071961, 34293574⟩, 12),
    (⟨0, 0, 0, 0, 130093180, 525318398, 201538968, 110374779, 41155040, 86331560⟩, ⟨11870864, 35843621, 16217298, 975920, 181038126, 1367819708, 270744155, 34289168, 14798515, 31573036⟩, 13),
    (⟨0, 0, 0, 0, 130315928, 526731068, 201832470, 110420225, 41347872, 87031071⟩, ⟨12447669, 37596575, 17800262, 1069837, 189755554, 1446926127, 283780875, 34534471, 14785720, 29807660⟩, 14),
    (⟨0, 0, 0, 0, 130486656, 527824311, 202056788, 110454395, 41486394, 87521872⟩, ⟨12880959, 38914039, 19035694, 1139017, 193089140, 1482417132, 288766528, 34719830, 14375724, 27231508⟩, 15),
    (⟨0, 0, 0, 0, 130665884, 528992415, 202290807, 110488934, 41637071, 88064991⟩, ⟨13314840, 40701275, 20312619, 1209076, 198995523, 1538114031, 297599455, 34906392, 14271372, 25689186⟩, 16),
    (⟨0, 0, 0, 0, 130851288, 530215916, 202531874, 110523700, 41790657, 88617281⟩, ⟨13749311, 43339255, 21630948, 1278976, 204643897, 1592388185, 306046559, 35094181, 14128191, 24060962⟩, 17),
    (⟨0, 0, 0, 0, 131043132, 531497391, 202780292, 110558701, 41947087, 89178477⟩, ⟨14184372, 46060250, 22990678, 1348717, 210028730, 1645156079, 314099567, 35283211, 13948494, 22359614⟩, 18)]
def thr5 : List (Thr × Thr × ℕ) :=
  [(⟨956363, 1920119, 0, 0, 104299286, 417475175, 162121592, 90215061, 26847068, 53766666⟩, ⟨951817, 2857508, 1031185, 100801, 12309886, 51363553, 25952021, 30941955, 4011556, 8244385⟩, 5),
    (⟨800165, 1457396, 0, 0, 104577999, 418873199, 162517659, 90298461, 26947049, 54153307⟩, ⟨1907985, 5732908, 2067290, 101014, 18355002, 117287737, 28805197, 31394220, 3107514, 10889670⟩, 5),
    (⟨655325, 1038670, 0, 0, 104860869, 420305228, 162918596, 90382138, 27100004, 54742439⟩, ⟨2868748, 8626687, 3107995, 101013, 37153735, 244461987, 55615408, 31854607, 5258260, 18880910⟩, 5),
    (⟨520440, 656774, 0, 0, 105152237, 421807655, 163329428, 90466291, 27300448, 55508055⟩, ⟨3834106, 11964215, 4153299, 100819, 59316462, 401340756, 88786174, 32323727, 7599642, 25649081⟩, 5),
    (⟨394033, 304268, 0, 0, 105457553, 423427091, 163756445, 90551154, 27543565, 56427952⟩, ⟨4804059, 15600422, 5203201, 101377, 83091525, 577444283, 124369696, 32802190, 9619943, 30314807⟩, 7),
    (⟨274623, 0, 0, 0, 105783088, 425218233, 164206874, 90636987, 27825128, 57483189⟩, ⟨5778606, 18995311, 6257700, 126014, 107101689, 763667370, 160304973, 33290605, 11178453, 32615395⟩, 9),
    (⟨157371, 0, 0, 0, 105952335, 426170273, 164439446, 90679682, 27958054, 57956781⟩, ⟨6267593, 18899623, 6786666, 148644, 110269547, 796125410, 165047238, 33538736, 10534472, 28150794⟩, 9),
    (⟨102081, 0, 0, 0, 106131452, 427206707, 164683577, 90723363, 28117408, 58544551⟩, ⟨6757739, 20385572, 7316788, 240767, 120883782, 883516280, 180933374, 33789582, 10930155, 27808733⟩, 11),
    (⟨47655, 0, 0, 0, 106318919, 428315793, 164937357, 90767417, 28284509, 59158148⟩, ⟨7249034, 21876119, 7848058, 332550, 131126409, 969979419, 196263372, 34043222, 11209792, 27039393⟩, 12),
    (⟨0, 0, 0, 0, 106515629, 429505831, 165201814, 90811878, 28458997, 59796116⟩, ⟨7741478, 23371262, 8380478, 423979, 140929129, 1054894096, 210935018, 34299731, 11377658, 25889564⟩, 13),
    (⟨0, 0, 0, 0, 106678648, 430508178, 165419888, 90847599, 28597002, 60291877⟩, ⟨8136258, 24570679, 8807239, 495960, 146207610, 1104649540, 218835599, 34507056, 11171037, 23835108⟩, 15),
    (⟨0, 0, 0, 0, 106849940, 431583215, 165647535, 90883772, 28745513, 60830558⟩, ⟨8531775, 25773047, 9397679, 568542, 153247792, 1168535658, 229372672, 34716304, 11161398, 22502340⟩, 16),
    (⟨0, 0, 0, 0, 106981093, 432414175, 165821358, 90910928, 28851971, 61207573⟩, ⟨8828894, 26676745, 10050738, 621793, 155940080, 1197198842, 233402575, 34874527, 10851689, 20556947⟩, 17),
    (⟨0, 0, 0, 0, 107118466, 433299863, 166002373, 90938439, 28968005, 61625928⟩, ⟨9126429, 27582107, 10725775, 675879, 160710082, 1242179673, 240541920, 35033870, 10772924, 19392591⟩, 18),
    (⟨0, 0, 0, 0, 107260357, 434226053, 166188603, 90966139, 29086286, 62051443⟩, ⟨9424378, 28489127, 11422693, 729821, 165271722, 1286011574, 247369433, 35194352, 10664843, 18163391⟩, 19),
    (⟨0, 0, 0, 0, 107406960, 435194627, 166380269, 90994036, 29206765, 62483925⟩, ⟨9722740, 29397811, 12141492, 783616, 169620533, 1328627100, 253878427, 35355986, 10529195, 16878988⟩, 20)]
def thr6 : List (Thr × Thr × ℕ) :=
  [(⟨1401509, 2809909, 0, 0, 85666134, 342884741, 133258429, 74323292, 18402543, 36863254⟩, ⟨653187, 1960698, 708996, 136302, 11925471, 49320264, 25834231, 32085376, 3494005, 7141128⟩, 5),
    (⟨1266403, 2409683, 0, 0, 85886629, 343990730, 133572414, 74389015, 18481562, 37166080⟩, ⟨1309113, 3933314, 1421853, 135997, 14833959, 94784979, 28038516, 32473841, 2821667, 8202651⟩, 5),
    (⟨1141155, 2047664, 0, 0, 86110194, 345121818, 133890059, 74454985, 18600769, 37622633⟩, ⟨1968260, 5918814, 2137939, 135423, 30024870, 197550907, 44990678, 32870253, 3960096, 14221943⟩, 5),
    (⟨1024581, 1717833, 0, 0, 86340024, 346304752, 134215113, 74521372, 18756013, 38406953⟩, ⟨2630628, 8295545, 2958949, 134621, 47933919, 324318881, 71821538, 33275134, 5723651, 19320348⟩, 6),
    (⟨915458, 1414068, 0, 0, 86580124, 347573756, 134552263, 74588373, 18943655, 39419544⟩, ⟨3296217, 11041825, 3712806, 154033, 67145742, 466621164, 100603763, 33689006, 7245443, 22835130⟩, 8),
    (⟨812572, 1130391, 0, 0, 86835099, 348968968, 134906884, 74656207, 19160511, 40455273⟩, ⟨3965029, 13621085, 4408268, 191403, 86547514, 617100647, 129670441, 34112390, 8419425, 24568276⟩, 10),
    (⟨711660, 852196, 0, 0, 86967305, 349707883, 135089496, 74689548, 19262385, 40719740⟩, ⟨4300621, 13654152, 4669628, 192928, 89107610, 643330656, 133506867, 34327813, 7933391, 21202377⟩, 11),
    (⟨664318, 721338, 0, 0, 87106817, 350508995, 135280916, 74724122, 19404280, 41257213⟩, ⟨4637040, 14769089, 5034523, 207793, 97684636, 713948141, 146356634, 34545808, 8231459, 20944816⟩, 12),
    (⟨617824, 592130, 0, 0, 87252467, 351363468, 135479528, 74759015, 19575035, 41809941⟩, ⟨4974265, 15867653, 5400223, 221489, 105961387, 783816090, 158756582, 34766444, 8442118, 20365405⟩, 14),
    (⟨572050, 464015, 0, 0, 87404911, 352277390, 135686095, 74794256, 19748665, 42379677⟩, ⟨5312296, 16956181, 5766729, 233967, 113882675, 852432934, 170624039, 34989784, 8568588, 19499392⟩, 16),
    (⟨526257, 334538, 0, 0, 87531012, 353045457, 135856166, 74822505, 19873247, 42792524⟩, ⟨5583296, 17489510, 6060508, 239308, 118148143, 892639418, 177014767, 35170446, 8412788, 17951443⟩, 17),
    (⟨490471, 232540, 0, 0, 87663202, 353866921, 136033402, 74851214, 20016519, 43273961⟩, ⟨5854817, 18341431, 6354807, 247466, 123837130, 944264022, 185537943, 35352915, 8405553, 16947641⟩, 18),
    (⟨454302, 128273, 0, 0, 87764310, 354501130, 136168598, 74872697, 20108608, 43587299⟩, ⟨6058792, 18614711, 6575864, 249173, 126012784, 967426697, 188797827, 35490972, 8172108, 15481892⟩, 19),
    (⟨427782, 51349, 0, 0, 87869996, 355175535, 136309183, 74894555, 20219014, 43965055⟩, ⟨6263061, 19247260, 6797216, 276281, 129867314, 1003774636, 194572698, 35630077, 8112802, 14604950⟩, 20),
    (⟨401356, 0, 0, 0, 87979001, 355879673, 136453650, 74916575, 20330985, 44351206⟩, ⟨6467622, 19884880, 7018858, 318290, 133553477, 1039194231, 200095351, 35770246, 8031415, 13679178⟩, 22),
    (⟨375004, 0, 0, 0, 88091468, 356614926, 136602167, 74938763, 20444597, 44745989⟩, ⟨6672472, 20528934, 7240790, 360164, 137067665, 1073630982, 205360375, 35911491, 7929265, 12711832⟩, 23)]
def thr7 : List (Thr × Thr × ℕ) :=
  [(⟨1716327, 3439077, 0, 0, 70357702, 281605411, 109531987, 61246629, 12507461, 25362489⟩, ⟨447082, 1341438, 485531, 181878, 11734509, 48179248, 26043428, 33509345, 3011421, 6128040⟩, 5),
    (⟨1599531, 3093112, 0, 0, 70532206, 282480880, 109781031, 61297839, 12794932, 26222711⟩, ⟨895459, 2689959, 974567, 180921, 13042136, 76605007, 27765408, 33850937, 2519198, 6143117⟩, 5),
    (⟨1491289, 2780294, 0, 0, 70708993, 283374986, 110032854, 61349255, 13068985, 27035025⟩, ⟨1346087, 4047486, 1465868, 179586, 24265404, 159650665, 36408292, 34200324, 2965091, 10651061⟩, 5),
    (⟨1390590, 2495535, 0, 0, 70890422, 284307473, 110290276, 61401021, 13333767, 27819528⟩, ⟨1798967, 5691730, 2063502, 177943, 38737764, 262091134, 58117468, 34557954, 4285789, 14469717⟩, 6),
    (⟨1296413, 2233752, 0, 0, 71079450, 285303574, 110556815, 61453309, 13593082, 28594364⟩, ⟨2254100, 7742075, 2653423, 188103, 54262793, 377084266, 81405263, 34924272, 5425515, 17102401⟩, 9),
    (⟨1207757, 1990047, 0, 0, 71279472, 286392865, 110836497, 61506308, 13850443, 29375899⟩, ⟨2711485, 9678159, 3201460, 233845, 69941288, 498685299, 104923138, 35299727, 6304790, 18400672⟩, 12),
    (⟨1120828, 1751811, 0, 0, 71382894, 286967673, 110980017, 61531677, 13912694, 29541619⟩, ⟨2940977, 9790502, 3229841, 235840, 72010357, 519883504, 108027802, 35491020, 5939834, 15876930⟩, 13),
    (⟨1080245, 1640540, 0, 0, 71491789, 287588705, 111130462, 61558739, 14040235, 29940883⟩, ⟨3171077, 10639191, 3462828, 254035, 78941451, 576949217, 118424638, 35684763, 6163092, 15684153⟩, 14),
    (⟨1040465, 1531075, 0, 0, 71605216, 288249098, 111286308, 61586076, 14169058, 30349755⟩, ⟨3401741, 11476538, 3704591, 270800, 85629905, 633409366, 128457545, 35881015, 6320890, 15250331⟩, 16),
    (⟨1001385, 1422967, 0, 0, 71723659, 288953334, 111448126, 61613713, 14299498, 30776355⟩, ⟨3682178, 12306845, 3956153, 286072, 92031122, 688858656, 138059640, 36079828, 6415639, 14601865⟩, 18),
    (⟨962362, 1314194, 0, 0, 71821462, 289543902, 111581136, 61635745, 14390746, 31088243⟩, ⟨3857690, 12741169, 4157795, 292636, 95478141, 721350233, 143230639, 36240762, 6298799, 13442146⟩, 20),
    (⟨931957, 1228860, 0, 0, 71923771, 290173898, 111719583, 61658302, 14497679, 31473196⟩, ⟨4085073, 13392237, 4359808, 302620, 100075452, 763068361, 150126891, 36403401, 6293411, 12690493⟩, 22),
    (⟨901284, 1142022, 0, 0, 72001943, 290659701, 111825064, 61675052, 14564138, 31700782⟩, ⟨4191766, 13631498, 4511540, 304737, 101833702, 781787006, 152764721, 36526516, 6118424, 11592380⟩, 23),
    (⟨878850, 1078135, 0, 0, 72083505, 291175186, 111934646, 61692253, 14646192, 31999822⟩, ⟨4358170, 14115255, 4663487, 310956, 104948589, 811160155, 157437305, 36650617, 6074036, 10935734⟩, 24),
    (⟨856535, 1014186, 0, 0, 72167516, 291712589, 112047141, 61709595, 14729271, 32304480⟩, ⟨4523959, 14602369, 4815636, 316650, 107927426, 839783178, 161905829, 36775718, 6013112, 10242538⟩, 26),
    (⟨834323, 950121, 0, 0, 72254083, 292272927, 112162673, 61727084, 14813441, 32614968⟩, ⟨4689314, 15093767, 4967987, 321827, 110767293, 867612036, 166165915, 36901830, 5936640, 9518212⟩, 28)]
def thr8 : List (Thr × Thr × ℕ) :=
  [(⟨1925913, 3857818, 0, 0, 57818087, 231411158, 90089098, 50534111, 8827588, 17943942⟩, ⟨306619, 918796, 331550, 238330, 11713189, 47813624, 26557620, 35231953, 2562095, 5195808⟩, 5),
    (⟨1824966, 3558815, 0, 0, 57956358, 232105223, 90286918, 50573137, 9059275, 18633605⟩, ⟨612904, 1840025, 667112, 236731, 12721910, 61966651, 27922608, 35539607, 2209937, 4585367⟩, 5),
    (⟨1731437, 3288563, 0, 0, 58096340, 232813266, 90486886, 50612273, 9277346, 19273634⟩, ⟨920753, 2767511, 1004258, 234523, 19627826, 129132289, 29501475, 35854928, 2212512, 7950353⟩, 5),
    (⟨1644463, 3042727, 0, 0, 58239791, 233549958, 90691147, 50651649, 9485276, 19880864⟩, ⟨1230168, 3904510, 1384141, 231840, 31332740, 211982640, 47088056, 36178298, 3198303, 10801200⟩, 7),
    (⟨1563182, 2846730, 0, 0, 58388905, 234334021, 90902365, 50691417, 9686250, 20470495⟩, ⟨1541149, 5415013, 1846899, 228790, 43888915, 304984613, 65953203, 36510099, 4049096, 12766814⟩, 10),
    (⟨1486763, 2691410, 0, 0, 58546203, 235187375, 91123586, 50731748, 9883212, 21130345⟩, ⟨1853697, 6849095, 2279400, 262674, 56569177, 403330781, 85004655, 36850714, 4705507, 13736253⟩, 14),
    (⟨1422372, 2531515, 0, 0, 58627263, 235635913, 91236490, 50749845, 9922372, 21191379⟩, ⟨2010463, 6991828, 2321309, 265026, 58242845, 420477125, 87520348, 37024446, 4432145, 11849498⟩, 15),
    (⟨1396235, 2454825, 0, 0, 58712519, 236119338, 91355149, 50770459, 10018412, 21520856⟩, ⟨2167714, 7628962, 2508044, 285559, 63848526, 466630058, 95942740, 37200524, 4598836, 11705745⟩, 17),
    (⟨1370222, 2378803, 0, 0, 58801145, 236631987, 91477906, 50791304, 10114932, 21852960⟩, ⟨2383350, 8258581, 2689918, 304479, 69257976, 512293368, 104070343, 37378996, 4716665, 11382058⟩, 20),
    (⟨1344345, 2303492, 0, 0, 58893498, 237177180, 91605194, 50812403, 10212212, 22189373⟩, ⟨2603356, 8883579, 2867605, 321717, 74435129, 557139288, 111848977, 37559911, 4787433, 10898148⟩, 22),
    (⟨1318176, 2226518, 0, 0, 58969621, 237633399, 91709616, 50828989, 10278074, 22404936⟩, ⟨2739133, 9229312, 2961656, 329151, 77223082, 583418349, 116038194, 37706433, 4700067, 10032070⟩, 24),
    (⟨1297648, 2167150, 0, 0, 59049116, 238118982, 91818262, 50846252, 10357252, 22682330⟩, ⟨2909746, 9720621, 3097054, 340425, 80941303, 617159150, 121624888, 37854573, 4696083, 9471131⟩, 27),
    (⟨1276692, 2105389, 0, 0, 59109784, 238492940, 91900889, 50858827, 10404318, 22835786⟩, ⟨2994858, 9921975, 3147442, 342841, 82363433, 632299210, 123762024, 37966755, 4565315, 8651077⟩, 28),
    (⟨1261397, 2061348, 0, 0, 59172994, 238889021, 91986728, 50872020, 10464792, 23050475⟩, ⟨3120064, 10287504, 3245503, 349866, 84882713, 656055818, 127547349, 38079870, 4532215, 8161052⟩, 30),
    (⟨1246161, 2017617, 0, 0, 59238023, 239301361, 92074774, 50885335, 10525910, 23269072⟩, ⟨3244865, 10655335, 3342983, 356299, 87291963, 679205818, 131167377, 38193931, 4486772, 7643772⟩, 32),
    (⟨1230985, 1974269, 0, 0, 59304949, 239730712, 92165121, 50898779, 10587729, 23491619⟩, ⟨3369385, 11026091, 3440024, 362148, 89588824, 701713591, 134618564, 38308946, 4429724, 7103261⟩, 34)]
def thr9 : List (Thr × Thr × ℕ) :=
  [(⟨2202837, 4405683, 0, 170574, 47543533, 190284935, 74158039, 41787913, 6299518, 12661775⟩, ⟨212183, 633446, 225248, 304823, 11845235, 48133504, 27366765, 37280959, 2144283, 4336644⟩, 5),
    (⟨2162238, 4283971, 0, 167691, 47653243, 190836312, 74315489, 41816251, 6362310, 12971724⟩, ⟨421658, 1538079, 456321, 302982, 12632619, 52176586, 28467869, 37564453, 1901369, 3679443⟩, 5),
    (⟨2121714, 4162641, 0, 164671, 47764255, 191398355, 74474661, 41844465, 6449048, 13473075⟩, ⟨742885, 2650105, 688482, 300052, 15894233, 104561393, 29652770, 37855504, 1704808, 5931075⟩, 6),
    (⟨2081280, 4041821, 0, 161510, 47877888, 191982056, 74637203, 41872671, 6611334, 13966077⟩, ⟨1068960, 3590211, 921707, 296287, 25370799, 171637749, 38217968, 38154438, 2385184, 8058446⟩, 9),
    (⟨2040969, 3921717, 0, 158194, 47995785, 192601409, 74805154, 41901016, 6766024, 14499948⟩, ⟨1349952, 4237691, 1236783, 291899, 35536445, 246932358, 53525278, 38461583, 3019995, 9525429⟩, 12),
    (⟨2000821, 3802556, 0, 154707, 48119829, 193272780, 74980839, 41929666, 6915581, 15004508⟩, ⟨1566559, 4870835, 1579402, 287059, 45802518, 326553620, 68983666, 38777266, 3509817, 10249115⟩, 17),
    (⟨1960087, 3680102, 0, 150305, 48183449, 193623924, 75069606, 41940225, 6937106, 15007838⟩, ⟨1477886, 5016634, 1626522, 287096, 47157829, 340437577, 71025658, 38938412, 3304963, 8838682⟩, 19),
    (⟨1940046, 3620730, 0, 148396, 48250425, 194002126, 75163627, 41954797, 7008729, 15245921⟩, ⟨1538037, 5487013, 1776461, 309513, 51696284, 377803536, 77859701, 39101814, 3429377, 8731625⟩, 22),
    (⟨1920056, 3561634, 0, 146430, 48319925, 194402210, 75260798, 41969537, 7085930, 15484280⟩, ⟨1701751, 5952860, 1922770, 330174, 56075879, 414773238, 84454575, 39267515, 3517340, 8490319⟩, 25),
    (⟨1900121, 3502830, 0, 144406, 48392218, 194826652, 75361448, 41984472, 7168346, 15724324⟩, ⟨1863367, 6416100, 2065913, 349004, 60267417, 451081347, 90766328, 39435554, 3570193, 8129475⟩, 29),
    (⟨1879970, 3442817, 0, 142177, 48451686, 195181018, 75443770, 41995734, 7218778, 15867710⟩, ⟨1966344, 6685854, 2146083, 357156, 62524694, 472358169, 94165780, 39571696, 3504878, 7482967⟩, 31),
    (⟨1864081, 3396067, 0, 140464, 48513724, 195557547, 75529516, 42007981, 7284144, 16064049⟩, ⟨2092227, 7051376, 2255519, 369480, 65535073, 499675668, 98699009, 39709383, 3501955, 7064639⟩, 35),
    (⟨1847899, 3347697, 0, 138563, 48560991, 195847049, 75594507, 42016413, 7317725, 16162366⟩, ⟨2158582, 7216127, 2301125, 372156, 66686566, 511934341, 100433398, 39813674, 3404256, 6452491⟩, 37),
    (⟨1836011, 3312772, 0, 137218, 48610205, 196153295, 75662151, 42025797, 7366782, 16313721⟩, ⟨2251266, 7488726, 2380548, 379841, 68726264, 531168556, 103504977, 39918854, 3379602, 6087056⟩, 40),
    (⟨1824146, 3278021, 0, 135849, 48660781, 196471696, 75731486, 42035283, 7416017, 16467917⟩, ⟨2343724, 7763025, 2459473, 386881, 70676885, 549911729, 106442446, 40024932, 3345742, 5701331⟩, 43),
    (⟨1812303, 3243581, 0, 134456, 48712777, 196802813, 75802583, 42044880, 7465492, 16624730⟩, ⟨2436036, 8039439, 2537999, 393285, 72536519, 568135022, 109242928, 40131916, 3303223, 5298277⟩, 47)]
def thr10 : List (Thr × Thr × ℕ) :=
  [(⟨2442397, 4884807, 0, 284143, 39102199, 156497789, 61081755, 34693861, 4534267, 9116820⟩, ⟨149569, 486582, 189734, 374542, 12116073, 49061797, 28458314, 39671298, 1753842, 3539211⟩, 5),
    (⟨2411280, 4791518, 0, 283223, 39189349, 156936920, 61207454, 34712160, 4582570, 9261871⟩, ⟨391583, 1470171, 309877, 373842, 12739217, 52255682, 29364248, 39937953, 1595723, 3111799⟩, 6),
    (⟨2380216, 4698479, 0, 282048, 39277518, 157384488, 61334649, 34729751, 4631037, 9407985⟩, ⟨710044, 2530220, 470442, 371053, 13416143, 84735313, 30334485, 40212071, 1468091, 4413472⟩, 7),
    (⟨2349198, 4605683, 0, 280617, 39367703, 157848798, 61464618, 34746750, 4679884, 9622322⟩, ⟨1020863, 3426211, 631637, 366675, 20560116, 139080777, 31373447, 40493931, 1774030, 5997343⟩, 11),
    (⟨2318227, 4513185, 0, 278928, 39461143, 158340391, 61598930, 34763311, 4729360, 10019702⟩, ⟨1288665, 4043102, 793415, 361115, 28796409, 200084017, 43517338, 40783813, 2246596, 7089787⟩, 16),
    (⟨2287317, 4421065, 0, 276976, 39559255, 158871576, 61739367, 34779619, 4779726, 10386864⟩, ⟨1495053, 4346677, 1049113, 354708, 37114030, 264592669, 56080895, 41081996, 2611290, 7628963⟩, 22),
    (⟨2255939, 4326354, 0, 273704, 39609167, 159147313, 61808857, 34780785, 4805132, 10347487⟩, ⟨1410325, 3756857, 1096328, 336331, 38212444, 275843986, 57741466, 41234289, 2457952, 6576561⟩, 24),
    (⟨2240445, 4280122, 0, 272505, 39661967, 159445097, 61883867, 34788748, 4831008, 10515599⟩, ⟨1462620, 3990535, 1216932, 332829, 41889564, 306118179, 63295849, 41388761, 2550623, 6497149⟩, 29),
    (⟨2224963, 4233969, 0, 271236, 39716678, 159759443, 61961336, 34796761, 4859870, 10682522⟩, ⟨1499513, 4326312, 1334772, 350701, 45437987, 336071496, 68655885, 41545449, 2616169, 6317816⟩, 33),
    (⟨2209496, 4187901, 0, 269896, 39773499, 160092207, 62041512, 34804856, 4919351, 10849439⟩, ⟨1521574, 4661087, 1450170, 370960, 48834057, 365488989, 73785857, 41704387, 2655585, 6049512⟩, 39),
    (⟨2193857, 4140884, 0, 268279, 39820112, 160369246, 62106710, 34809880, 4952875, 10938705⟩, ⟨1494126, 4865657, 1517786, 379774, 50663054, 382728789, 76549114, 41833181, 2606858, 5568040⟩, 44),
    (⟨2181485, 4104038, 0, 267099, 39868743, 160663383, 62174900, 34816499, 4999500, 11073907⟩, ⟨1539879, 5131230, 1606208, 393051, 53102155, 404862283, 80233647, 41963456, 2604751, 5256915⟩, 49),
    (⟨2168895, 4065998, 0, 265669, 39905692, 160888963, 62226209, 34819961, 5020561, 11131210⟩, ⟨1590006, 5261577, 1646351, 395982, 54035239, 414795645, 81643647, 42062144, 2531916, 4801021⟩, 54),
    (⟨2159610, 4038344, 0, 264719, 39944192, 161127560, 62279929, 34825042, 5055279, 11235002⟩, ⟨1656833, 5460381, 1710603, 404274, 55687882, 430380042, 84140229, 42161682, 2513621, 4529237⟩, 59),
    (⟨2150330, 4010888, 0, 263744, 39983719, 161375327, 62334957, 34830196, 5090020, 11341169⟩, ⟨1723575, 5660551, 1774420, 411875, 57268361, 445566680, 86527830, 42262079, 2488475, 4242417⟩, 65),
    (⟨2141055, 3983889, 0, 262744, 40024318, 161632685, 62391348, 34835430, 5124833, 11449012⟩, ⟨1790286, 5862359, 1837867, 418796, 58775127, 460332195, 88804112, 42363341, 2456887, 3942702⟩, 71)]
def thr11 : List (Thr × Thr × ℕ) :=
  [(⟨2542587, 5085202, 0, 369325, 32194446, 128850154, 50417557, 29105732, 3201169, 6439839⟩, ⟨118416, 455233, 239105, 432177, 12521891, 50570218, 29839460, 42437899, 1392699, 2805328⟩, 5),
    (⟨2518204, 5012092, 0, 370381, 32263900, 129202019, 50518779, 29113706, 3238629, 6552230⟩, ⟨364141, 1361656, 237385, 436129, 13023734, 53137920, 30602053, 42693341, 1300683, 2558978⟩, 6),
    (⟨2493840, 4939074, 0, 370916, 32334204, 129561147, 50621545, 29119562, 3276127, 6665101⟩, ⟨657550, 2338037, 323364, 435922, 13565806, 68809468, 31415206, 42956164, 1228010, 3301782⟩, 9),
    (⟨2469476, 4866088, 0, 370940, 32406121, 129933874, 50726845, 29123439, 3313836, 6779398⟩, ⟨943819, 3162981, 437425, 432545, 16695742, 112922835, 32282267, 43226609, 1326246, 4487926⟩, 14),
    (⟨2445106, 4793140, 0, 370466, 32480589, 130328207, 50835874, 29125527, 3351957, 6896168⟩, ⟨1190387, 3730612, 551503, 426800, 23381376, 162439578, 35511068, 43504914, 1680098, 5306378⟩, 21),
    (⟨2420734, 4720269, 0, 369508, 32558679, 130753467, 50949977, 29126074, 3390696, 7016488⟩, ⟨1380326, 4009466, 665515, 419342, 30132974, 214801669, 45755958, 43791319, 1953258, 5710722⟩, 32),
    (⟨2395927, 4645077, 0, 366544, 32597760, 130971201, 51003846, 29112958, 3410115, 7077099⟩, ⟨1301950, 3464978, 720357, 392864, 31025017, 223937901, 47111578, 43937634, 1837689, 4920633⟩, 36),
    (⟨2383661, 4608297, 0, 365685, 32639662, 131208623, 51064637, 29112027, 3429978, 7139985⟩, ⟨1349998, 3422036, 797971, 388514, 34009873, 248512358, 51641069, 44086063, 1907163, 4861592⟩, 43),
    (⟨2371391, 4571522, 0, 364713, 32683028, 131458801, 51127385, 29110884, 3450097, 7204243⟩, ⟨1383850, 3326881, 893454, 384002, 36890278, 272826584, 56012133, 44236637, 1956337, 4727759⟩, 50),
    (⟨2359118, 4534754, 0, 363633, 32728009, 131723136, 51192277, 29109574, 3470496, 7269990⟩, ⟨1404030, 3466687, 987018, 392859, 39647033, 296706136, 60195656, 44389385, 1985957, 4527328⟩, 61),
    (⟨2346692, 4497170, 0, 362152, 32764729, 131942226, 51244369, 29105510, 3486948, 7323294⟩, ⟨1378578, 3617211, 1043946, 402443, 41131852, 310701720, 62449577, 44513170, 1949409, 4166776⟩, 70),
    (⟨2336852, 4467674, 0, 361132, 32803132, 132175081, 51299442, 29104265, 3503682, 7378060⟩, ⟨1377108, 3804482, 1115750, 416839, 43111826, 328668987, 65454469, 44638381, 1947932, 3934224⟩, 83),
    (⟨2326829, 4437190, 0, 359754, 32832142, 132352792, 51340174, 29100287, 3516275, 7419335⟩, ⟨1339087, 3904674, 1150665, 420083, 43869412, 336733900, 66604878, 44733235, 1893323, 3592783⟩, 93),
    (⟨2319432, 4415034, 0, 358902, 32862486, 132541182, 51383474, 29099296, 3529088, 7461878⟩, ⟨1329225, 4045765, 1202883, 429096, 45210992, 349385127, 68641030, 44828905, 1879708, 3389624⟩, 106),
    (⟨2312034, 4393325, 0, 358015, 32893613, 132736581, 51427794, 29098312, 3542032, 7506085⟩, ⟨1324424, 4188081, 1254713, 437370, 46494001, 361713599, 70588338, 44925400, 1860965, 3175320⟩, 121),
    (⟨2304634, 4372543, 0, 357096, 32925555, 132939304, 51473173, 29097349, 3555112, 7570865⟩, ⟨1371040, 4331798, 1306204, 444916, 47717182, 373700348, 72444894, 45022724, 1837400, 2951359⟩, 141)]
def thr12 : List (Thr × Thr × ℕ) :=
  [(⟨1097515, 2199630, 0, 160944, 26510276, 106099849, 41609049, 24356901, 1339754, 2860076⟩, ⟨109030, 218774, 154763, 115311, 12436794, 50142376, 29888515, 42983736, 789798, 1591384⟩, 5),
    (⟨1041447, 2033646, 0, 154910, 26565672, 106381871, 41690587, 24358596, 1456494, 3207214⟩, ⟨110141, 291578, 159127, 130598, 12846640, 52236230, 30540423, 43228290, 706478, 1358920⟩, 6),
    (⟨989578, 1883893, 0, 149094, 26621785, 106670151, 41773638, 24357451, 1561281, 3497019⟩, ⟨140389, 480836, 159786, 140902, 13287159, 55869573, 31233173, 43480158, 634384, 1170801⟩, 7),
    (⟨941400, 1747847, 0, 143494, 26679202, 106969580, 41858980, 24353609, 1653229, 3740605⟩, ⟨195979, 639214, 157924, 147414, 13760431, 91673087, 31969324, 43739542, 572956, 1378685⟩, 10),
    (⟨896427, 1623157, 0, 138112, 26738645, 107286308, 41947541, 24347282, 1734440, 3947993⟩, ⟨243512, 747220, 176217, 151092, 18982238, 131861352, 32751439, 44006649, 521630, 1632817⟩, 14),
    (⟨854206, 1507665, 0, 132946, 26800930, 107627475, 42040356, 24338742, 1806851, 4128198⟩, ⟨279882, 912300, 218485, 187916, 24462021, 174358910, 37314239, 44281684, 597501, 1759281⟩, 19),
    (⟨812276, 1393896, 0, 127929, 26831645, 107800057, 42082361, 24318085, 1787937, 4035077⟩, ⟨264154, 913885, 235892, 188487, 25186404, 181776918, 38420443, 44422238, 559405, 1508329⟩, 21),
    (⟨793140, 1342212, 0, 125525, 26864996, 107989962, 42131743, 24312082, 1818626, 4110292⟩, ⟨273174, 1015120, 256836, 206030, 27609045, 201722372, 42112548, 44564850, 581062, 1491084⟩, 24),
    (⟨774450, 1291730, 0, 123175, 26899482, 108189807, 42182709, 24305728, 1848090, 4183069⟩, ⟨279420, 1112911, 278903, 222288, 29946922, 221456810, 45675565, 44709547, 596477, 1450790⟩, 27),
    (⟨756165, 1242268, 0, 120879, 26935219, 108400659, 42235400, 24299073, 1876512, 4254217⟩, ⟨300094, 1207715, 340895, 237198, 32184457, 240838685, 49085773, 44856353, 605878, 1389974⟩, 30),
    (⟨737883, 1192778, 0, 118614, 26964267, 108574751, 42277230, 24289984, 1887463, 4273858⟩, ⟨320469, 1250355, 373610, 243533, 33389736, 252199274, 50923449, 44975334, 594325, 1278182⟩, 32),
    (⟨723795, 1154452, 0, 116858, 26994723, 108760004, 42321893, 24284280, 1908985, 4329675⟩, ⟨347698, 1321395, 419274, 253431, 34996825, 266782841, 53373002, 45095696, 594107, 1207330⟩, 35),
    (⟨709556, 1115712, 0, 115108, 27017609, 108900773, 42354428, 24276222, 1913549, 4334808⟩, ⟨359130, 1339392, 435936, 255513, 35611860, 273330055, 54311215, 45186880, 576961, 1101389⟩, 37),
    (⟨699256, 1087495, 0, 113838, 27041638, 109050338, 42389499, 24271791, 1929198, 4377048⟩, ⟨378608, 1390175, 467970, 261778, 36700804, 283598995, 55971133, 45278853, 572956, 1039446⟩, 39),
    (⟨689048, 1059425, 0, 112588, 27066270, 109205321, 42425379, 24267331, 1944715, 4420554⟩, ⟨397819, 1440511, 499298, 267561, 37742216, 293606074, 57558655, 45371621, 567373, 974100⟩, 41),
    (⟨678924, 1031481, 0, 111357, 27091530, 109365962, 42462097, 24262857, 1960138, 4464623⟩, ⟨416783, 1490498, 529952, 272871, 38735075, 303335900, 59072226, 45465189, 560308, 905781⟩, 44)]
def thr13 : List (Thr × Thr × ℕ) :=
  [(⟨1148232, 2300990, 0, 176807, 25025915, 100159346, 39341939, 23296387, 1076164, 2329556⟩, ⟨116016, 232472, 151791, 85461, 12603576, 50788682, 30397682, 43932952, 685211, 1380285⟩, 5),
    (⟨1094612, 2142272, 0, 170917, 25077797, 100424482, 39418930, 23294786, 1186994, 2649979⟩, ⟨116716, 307255, 158070, 82852, 12991520, 52769736, 31024114, 44176057, 618275, 1194114⟩, 6),
    (⟨1045022, 1999118, 0, 165227, 25130395, 100695977, 39497592, 23289421, 1283402, 2915743⟩, ⟨147897, 505770, 159825, 95794, 13407868, 54925030, 31689073, 44426456, 560733, 1045052⟩, 7),
    (⟨998969, 1869100, 0, 159739, 25184251, 100978363, 39578637, 23280452, 1367554, 3137316⟩, ⟨206185, 671867, 158509, 105314, 13854528, 86223318, 32394928, 44684344, 512118, 1224909⟩, 11),
    (⟨955987, 1749960, 0, 154458, 25240028, 101277323, 39662905, 23268121, 1441426, 3324116⟩, ⟨256015, 785045, 155230, 146650, 17854230, 124015964, 33144047, 44949917, 471961, 1451519⟩, 15),
    (⟨915644, 1639638, 0, 149387, 25298479, 101599441, 39751327, 23252742, 1506840, 3484610⟩, ⟨294120, 839348, 193802, 192399, 23007424, 163980240, 35187050, 45223371, 530387, 1564602⟩, 20),
    (⟨875514, 1530793, 0, 144444, 25326965, 101760914, 39789940, 23224954, 1485752, 3386330⟩, ⟨277451, 824226, 208244, 192278, 23688843, 170957727, 36230666, 45363115, 496117, 1340262⟩, 22),
    (⟨857238, 1481468, 0, 142083, 25358235, 101940058, 39836913, 23214875, 1513135, 3452023⟩, ⟨286876, 909455, 227379, 210793, 25967124, 189714571, 39711051, 45504901, 515467, 1325234⟩, 25),
    (⟨839392, 1433304, 0, 139777, 25390563, 102128513, 39885384, 23204276, 1539320, 3515231⟩, ⟨293390, 992007, 246441, 227972, 28165700, 208273089, 43069785, 45648756, 529269, 1289705⟩, 29),
    (⟨821935, 1386129, 0, 137526, 25424053, 102327257, 39935478, 23193218, 1564478, 3576710⟩, ⟨297102, 1072271, 265428, 243746, 30269924, 226500187, 46284517, 45794703, 537724, 1235919⟩, 32),
    (⟨804471, 1338917, 0, 135301, 25451186, 102490907, 39974867, 23179677, 1573093, 3589453⟩, ⟨298663, 1109235, 293713, 250344, 31403457, 237184507, 48017133, 45912983, 527434, 1136474⟩, 35),
    (⟨791027, 1302393, 0, 133582, 25479707, 102665345, 40017274, 23170233, 1592008, 3637321⟩, ⟨321575, 1169744, 337301, 260844, 32914815, 250899413, 50326356, 46032631, 527317, 1073701⟩, 38),
    (⟨777430, 1265468, 0, 131865, 25501045, 102797442, 40047757, 23158452, 1594889, 3637338⟩, ⟨331363, 1186115, 353981, 262959, 33493282, 257057291, 51211114, 46123271, 512038, 979416⟩, 40),
    (⟨767605, 1238598, 0, 130625, 25523534, 102938150, 40081014, 23151104, 1608572, 3673463⟩, ⟨347802, 1229600, 384619, 269623, 34517371, 266714720, 52775990, 46214693, 508535, 924511⟩, 43),
    (⟨757869, 1211878, 0, 129406, 25546580, 103083899, 40115021, 23143687, 1622116, 3710938⟩, ⟨364036, 1272794, 414597, 275785, 35496765, 276125951, 54272639, 46306902, 503630, 866600⟩, 45),
    (⟨748215, 1185284, 0, 128207, 25570208, 103234908, 40149804, 23136218, 1635552, 3748868⟩, ⟨380083, 1315782, 443941, 281449, 36430503, 285276509, 55699593, 46399902, 497406, 806042⟩, 48)]
def thr14 : List (Thr × Thr × ℕ) :=
  [(⟨1190944, 2386347, 0, 189622, 23633272, 94586063, 37227903, 22373623, 837871, 1843840⟩, ⟨123511, 247229, 145366, 85189, 12782667, 51486089, 30935711, 44923838, 583689, 1175510⟩, 5),
    (⟨1139672, 2234599, 0, 183833, 23681929, 94835894, 37300896, 22368497, 940149, 2139227⟩, ⟨123862, 320276, 154160, 82653, 13150687, 53364568, 31539074, 45165770, 532009, 1032540⟩, 6),
    (⟨1092267, 2097788, 0, 178225, 23731315, 95092342, 37375784, 22358411, 1028736, 2382694⟩, ⟨154106, 525547, 157409, 80163, 13545071, 55404732, 32178883, 45414979, 488076, 920177⟩, 8),
    (⟨1048257, 1973576, 0, 172805, 23781929, 95359604, 37453210, 22343549, 1105666, 2584076⟩, ⟨214357, 697204, 156897, 95795, 13967571, 81138676, 32857330, 45671650, 451507, 1095857⟩, 11),
    (⟨1007193, 1859798, 0, 167583, 23834383, 95642930, 37533925, 22324191, 1172796, 2752201⟩, ⟨265841, 814028, 153983, 146302, 16801886, 116694931, 33576604, 45935972, 421917, 1299527⟩, 16),
    (⟨968660, 1754481, 0, 162566, 23889365, 95948385, 37618748, 22300711, 1231833, 2894990⟩, ⟨305177, 869868, 173445, 194116, 21650210, 154294303, 34338899, 46208129, 474022, 1401527⟩, 22),
    (⟨930244, 1650291, 0, 157656, 23915757, 96099769, 37654113, 22264229, 1208794, 2792239⟩, ⟨287732, 755272, 184921, 192904, 22291567, 160860892, 34736864, 46347204, 442938, 1199433⟩, 24),
    (⟨912795, 1603234, 0, 155321, 23945143, 96269500, 37699082, 22249250, 1233190, 2849458⟩, ⟨297428, 825587, 202641, 212334, 24435095, 178508202, 37482945, 46488308, 460375, 1186327⟩, 27),
    (⟨895758, 1557299, 0, 153041, 23975515, 96447989, 37745473, 22233533, 1256421, 2904171⟩, ⟨304109, 893936, 220235, 230390, 26503642, 195969054, 40651881, 46631465, 472845, 1154851⟩, 31),
    (⟨879097, 1512321, 0, 150818, 24006970, 96636138, 37793394, 22217153, 1278647, 2957083⟩, ⟨307890, 960648, 237700, 246998, 28483431, 213118252, 43685012, 46776698, 480527, 1107015⟩, 35),
    (⟨862412, 1467254, 0, 148618, 24032345, 96790538, 37830610, 22198183, 1285174, 2963748⟩, ⟨301994, 992158, 250093, 253783, 29550009, 223171450, 45320111, 46894394, 471303, 1017938⟩, 38),
    (⟨849585, 1432453, 0, 146926, 24059110, 96955489, 37871107, 22184201, 1301757, 3004583⟩, ⟨304353, 1042850, 263860, 264878, 30972013, 236075577, 47498992, 47013445, 471287, 961977⟩, 42),
    (⟨836594, 1397212, 0, 145229, 24079023, 97079854, 37899717, 22167860, 1303139, 3000099⟩, ⟨312564, 1057526, 279937, 266967, 31516363, 241870196, 48334192, 47103630, 457576, 877468⟩, 44),
    (⟨827223, 1371624, 0, 144012, 24100111, 97212775, 37931420, 22156963, 1315068, 3030824⟩, ⟨326169, 1094208, 309277, 274035, 32479921, 250956895, 49810807, 47194589, 454506, 828490⟩, 47),
    (⟨817938, 1346185, 0, 142817, 24121716, 97350395, 37963815, 22145945, 1326851, 3063038⟩, ⟨339628, 1130751, 337996, 280580, 33401432, 259812028, 51223073, 47286328, 450180, 776843⟩, 50),
    (⟨808732, 1320874, 0, 141644, 24143860, 97492918, 37996928, 22134826, 1338517, 3095611⟩, ⟨352955, 1167226, 366122, 286609, 34279992, 268421977, 52569605, 47378850, 444672, 722821⟩, 53)]
def thr15 : List (Thr × Thr × ℕ) :=
  [(⟨1223296, 2450995, 0, 199269, 22321397, 89336185, 35252471, 21593309, 617786, 1395052⟩, ⟨131524, 263094, 133890, 84778, 12972442, 52227849, 31498913, 45951354, 483654, 973880⟩, 5),
    (⟨1174289, 2305975, 0, 193524, 22367094, 89572205, 35322022, 21584389, 711997, 1666920⟩, ⟨131614, 327671, 145979, 82308, 13322249, 54012596, 32081289, 46192350, 446092, 870951⟩, 6),
    (⟨1128998, 2175308, 0, 187942, 22413550, 89815282, 35393772, 21568973, 793271, 1889706⟩, ⟨157573, 534865, 151256, 79883, 13696577, 55947683, 32698227, 46440604, 414792, 792755⟩, 9),
    (⟨1086966, 2056743, 0, 182535, 22461227, 90069303, 35468293, 21547274, 863514, 2072617⟩, ⟨218372, 707933, 151912, 89883, 14097036, 76374666, 33351757, 46696297, 389442, 981052⟩, 12),
    (⟨1047764, 1948206, 0, 177319, 22510682, 90339106, 35546238, 21519625, 924462, 2223890⟩, ⟨270275, 825496, 149613, 141867, 15816016, 109833942, 34043908, 46959604, 369729, 1164485⟩, 17),
    (⟨1010994, 1847809, 0, 172306, 22562542, 90630268, 35628309, 21486472, 977708, 2350899⟩, ⟨309878, 881382, 156113, 191319, 20378495, 145215834, 34776709, 47230705, 423824, 1256784⟩, 24),
    (⟨974212, 1748000, 0, 167376, 22586953, 90772525, 35660540, 21439360, 952934, 2244347⟩, ⟨292003, 761590, 164381, 188426, 20982348, 151397600, 35158988, 47369235, 395534, 1074347⟩, 26),
    (⟨957564, 1703152, 0, 165043, 22614639, 90934172, 35703931, 21418455, 974648, 2294099⟩, ⟨301716, 755769, 180982, 208637, 22999540, 168004640, 35552190, 47509778, 411294, 1063016⟩, 30),
    (⟨941314, 1659387, 0, 162768, 22643246, 91104103, 35748678, 21396532, 995237, 2341347⟩, ⟨308380, 810612, 197392, 227460, 24946184, 184436385, 38402972, 47652360, 422603, 1035207⟩, 34),
    (⟨925424, 1616549, 0, 160555, 22672863, 91283142, 35794869, 21373684, 1014848, 2386747⟩, ⟨312112, 864410, 213609, 244815, 26809315, 200575045, 41266914, 47797001, 429620, 992719⟩, 39),
    (⟨909480, 1576105, 0, 158358, 22696624, 91429441, 35830181, 21348068, 1019524, 2388117⟩, ⟨306046, 890433, 224468, 251659, 27813143, 210036731, 42811283, 47914212, 421350, 912867⟩, 42),
    (⟨897250, 1548855, 0, 156679, 22721801, 91586202, 35869124, 21328549, 1034037, 2422793⟩, ⟨305253, 931727, 237144, 263308, 29151384, 222180817, 44868766, 48032767, 421441, 863002⟩, 46),
    (⟨884828, 1521208, 0, 154988, 22740393, 91703732, 35896031, 21306605, 1034097, 2414393⟩, ⟨299174, 944448, 244541, 265280, 29663773, 227635094, 45657939, 48122572, 409125, 787180⟩, 49),
    (⟨875895, 1500467, 0, 153785, 22760211, 91829900, 35926446, 21291370, 1044473, 2440394⟩, ⟨310083, 974594, 253882, 272735, 30570591, 236186823, 47052375, 48213144, 406452, 743498⟩, 52),
    (⟨867045, 1479778, 0, 152606, 22780508, 91960461, 35957498, 21275946, 1054697, 2468079⟩, ⟨320899, 1004741, 267306, 279656, 31437846, 244520722, 48386084, 48304488, 402652, 697451⟩, 55),
    (⟨858271, 1460249, 0, 151452, 22801302, 92095598, 35989207, 21260357, 1064799, 2496034⟩, ⟨331635, 1034949, 294251, 286049, 32264687, 252623977, 49657759, 48396609, 397792, 659908⟩, 59)]
def thr16 : List (Thr × Thr × ℕ) :=
  [(⟨1249258, 2502877, 0, 206192, 21093316, 84421835, 33424275, 20979749, 415095, 981589⟩, ⟨140173, 280393, 116867, 84292, 13174776, 53021424, 32092077, 47022955, 386800, 778772⟩, 6),
    (⟨1202428, 2364325, 0, 200417, 21136331, 84645654, 33491019, 20966706, 501751, 1231540⟩, ⟨140178, 333814, 133195, 81881, 13508035, 54721024, 32655494, 47263251, 362395, 713235⟩, 6),
    (⟨1159169, 2239567, 0, 194788, 21180160, 84877203, 33560370, 20945185, 576250, 1435359⟩, ⟨160405, 541067, 141131, 79515, 13864156, 56560760, 33251778, 47510790, 342916, 667153⟩, 9),
    (⟨1119041, 2126436, 0, 189323, 21225225, 85120074, 33632823, 20915441, 640373, 1601626⟩, ⟨221207, 713883, 143370, 79605, 14244621, 71939048, 33882810, 47765742, 328116, 887263⟩, 13),
    (⟨1081631, 2022937, 0, 184043, 21272031, 85378717, 33708926, 20877870, 695735, 1737987⟩, ⟨273040, 830974, 141958, 132415, 14898264, 103443694, 34550470, 48028278, 327230, 1054420⟩, 19),
    (⟨1046555, 1927258, 0, 178968, 21321147, 85658242, 33789248, 20833017, 743812, 1851260⟩, ⟨312516, 886232, 142939, 183012, 19194331, 136758635, 35256642, 48298566, 382729, 1139032⟩, 26),
    (⟨1011336, 1851375, 0, 173950, 21343686, 85792400, 33818448, 20772774, 717532, 1741614⟩, ⟨294312, 765285, 147647, 177629, 19763315, 142582362, 35624758, 48436671, 356658, 972445⟩, 29),
    (⟨995457, 1819829, 0, 171591, 21369868, 85947444, 33860763, 20744613, 736888, 1784961⟩, ⟨303930, 753831, 163494, 198476, 21662773, 158219890, 36003206, 48576778, 371084, 962666⟩, 33),
    (⟨979959, 1788061, 0, 169294, 21396915, 86110379, 33904376, 20715074, 755162, 1825829⟩, ⟨310491, 746480, 179073, 217953, 23495816, 173692575, 36392223, 48718908, 381481, 937945⟩, 38),
    (⟨964807, 1756063, 0, 167064, 21424904, 86281953, 33949357, 20684270, 772495, 1864823⟩, ⟨314113, 788240, 194381, 235967, 25250240, 188889539, 39039636, 48863083, 387990, 899909⟩, 43),
    (⟨949571, 1723579, 0, 164845, 21447200, 86421406, 33983068, 20650429, 775569, 1861715⟩, ⟨307902, 809015, 203804, 242709, 26195622, 197800255, 40500422, 48979909, 380507, 827597⟩, 47),
    (⟨937909, 1697585, 0, 163162, 21470964, 86571401, 34020872, 20624080, 788288, 1891144⟩, ⟨307012, 841548, 215641, 254881, 27455818, 209236175, 42445886, 49098068, 380711, 782768⟩, 52),
    (⟨928843, 1671138, 0, 161457, 21488343, 86683060, 34046259, 20595176, 787213, 1879432⟩, ⟨298226, 852300, 221710, 256616, 27938456, 214373605, 43192783, 49187569, 369534, 714025⟩, 55),
    (⟨922469, 1651387, 0, 160257, 21507027, 86803607, 34075693, 20574577, 796247, 1901418⟩, ⟨301676, 876354, 230361, 264455, 28792412, 222426943, 44511424, 49277830, 367203, 674710⟩, 59),
    (⟨916075, 1631761, 0, 159084, 21526154, 86928271, 34105707, 20553702, 805126, 1925358⟩, ⟨310029, 900544, 238924, 271755, 29609122, 230275279, 45772697, 49368857, 363851, 664930⟩, 63),
    (⟨909658, 1613677, 0, 157940, 21545740, 87057221, 34136318, 20532580, 813878, 1949484⟩, ⟨318347, 924919, 247400, 278521, 30387785, 237906545, 46975363, 49460653, 359538, 680256⟩, 68)]
def thr17 : List (Thr × Thr × ℕ) :=
  [(⟨1266880, 2538092, 0, 210171, 19939824, 79806202, 31733133, 20548073, 226138, 596073⟩, ⟨149371, 298790, 92064, 83650, 13388031, 53860045, 32711411, 48133344, 291485, 586881⟩, 6),
    (⟨1222156, 2405801, 0, 204269, 19980427, 80019412, 31797752, 20530536, 305703, 825592⟩, ⟨149302, 336404, 113836, 81292, 13706179, 55481922, 33257622, 48373142, 279269, 556034⟩, 7),
    (⟨1180865, 2286769, 0, 198496, 20021924, 80241307, 31865518, 20501980, 373934, 1012089⟩, ⟨161484, 539873, 125259, 78979, 14045692, 57234712, 33835165, 48620167, 270772, 586030⟩, 10),
    (⟨1142581, 2178901, 0, 192879, 20064698, 80475197, 31936839, 20462710, 432482, 1163509⟩, ⟨221161, 709065, 129646, 76714, 14407932, 67794957, 34445785, 48874582, 265804, 805172⟩, 14),
    (⟨1106905, 2089398, 0, 187445, 20109206, 80725156, 32012142, 20413211, 482840, 1286890⟩, ⟨271928, 823274, 129512, 115378, 14794264, 97470567, 35091228, 49136549, 295844, 958364⟩, 21),
    (⟨1073468, 2029883, 0, 182225, 20155954, 80995840, 32091849, 20354149, 526366, 1388480⟩, ⟨310488, 876614, 132882, 166276, 18087862, 128851372, 35773238, 49406231, 346648, 1036511⟩, 29),
    (⟨1044045, 1968652, 0, 177026, 20176712, 81122924, 32118093, 20277676, 498813, 1276470⟩, ⟨292206, 756464, 133346, 157233, 18624342, 134340980, 36128503, 49544015, 322427, 883505⟩, 32),
    (⟨1034054, 1938163, 0, 174602, 20201586, 81272916, 32159894, 20240606, 516131, 1314480⟩, ⟨301513, 744681, 148728, 178459, 20413666, 149071492, 36493563, 49683789, 335727, 875196⟩, 37),
    (⟨1024020, 1907486, 0, 172249, 20227273, 81430488, 32202947, 20201697, 532421, 1350058⟩, ⟨307810, 721923, 163746, 198378, 22140449, 163647006, 36868639, 49825573, 345364, 853282⟩, 43),
    (⟨1013941, 1876619, 0, 169970, 20253841, 81596312, 32247296, 20161088, 547810, 1383756⟩, ⟨311214, 724359, 178402, 216886, 23793197, 177963123, 37253947, 49969387, 351467, 819240⟩, 49),
    (⟨1003749, 1845229, 0, 167694, 20274811, 81730203, 32279728, 20117058, 549535, 1376990⟩, ⟨304925, 739907, 186366, 223280, 24683951, 186358810, 38374367, 50085913, 344676, 753521⟩, 54),
    (⟨995611, 1820207, 0, 165985, 20297333, 81874907, 32316853, 20082266, 560735, 1402080⟩, ⟨303920, 764067, 197549, 235902, 25871162, 197132464, 40216510, 50203762, 345009, 713166⟩, 60),
    (⟨987364, 1794672, 0, 164240, 20313598, 81981666, 32340904, 20044716, 558710, 1387659⟩, ⟨295128, 772673, 202202, 237222, 26326019, 201973951, 40924696, 50293023, 334824, 650596⟩, 63),
    (⟨981212, 1775698, 0, 163030, 20331279, 82097753, 32369694, 20017475, 566613, 1406331⟩, ⟨297560, 790886, 210292, 245423, 27130549, 209561293, 42173483, 50383038, 332814, 657414⟩, 68),
    (⟨975042, 1756935, 0, 161851, 20349369, 82217713, 32399006, 19989845, 574360, 1427300⟩, ⟨303569, 809361, 218266, 253092, 27900001, 216955668, 43368019, 50473812, 329874, 673727⟩, 73),
    (⟨968855, 1740182, 0, 160706, 20367881, 82341696, 32428850, 19961864, 581977, 1448376⟩, ⟨309587, 828136, 226128, 260233, 28633623, 224145709, 44507132, 50565348, 326059, 690640⟩, 79)]
def thr18 : List (Thr × Thr × ℕ) :=
  [(⟨1278362, 2561046, 0, 211332, 18864175, 75502328, 30189704, 20332367, 49719, 236141⟩, ⟨186648, 391465, 66870, 82885, 13612715, 54745699, 33358125, 49284206, 209875, 477551⟩, 6),
    (⟨1235671, 2434803, 0, 205174, 18902657, 75706692, 30253002, 20309915, 122691, 446820⟩, ⟨204097, 443492, 86917, 80574, 13917146, 56297041, 33888828, 49523702, 218881, 498519⟩, 7),
    (⟨1196282, 2321310, 0, 199129, 18942146, 75921048, 30320152, 20273189, 185197, 617771⟩, ⟨220266, 535947, 102813, 78308, 14241593, 57970996, 34449482, 49770409, 222276, 535001⟩, 11),
    (⟨1159782, 2245425, 0, 193233, 18982987, 76148435, 30391464, 20222561, 238761, 756294⟩, ⟨235393, 699556, 110013, 76090, 14587314, 63951921, 35041705, 50024485, 221600, 737415⟩, 15),
    (⟨1131991, 2187866, 0, 187525, 19025586, 76392557, 30467226, 20158626, 284747, 868801⟩, ⟨269281, 809414, 111606, 88327, 14955565, 91927416, 35667121, 50286083, 269655, 879482⟩, 23),
    (⟨1112794, 2129729, 0, 182046, 19070387, 76657623, 30547689, 20082209, 324392, 960941⟩, ⟨306458, 859976, 126668, 138412, 17061604, 121510419, 36327349, 50555359, 316700, 952673⟩, 33),
    (⟨1093153, 2069625, 0, 176548, 19089452, 76778768, 30571048, 19985609, 295821, 847363⟩, ⟨288200, 741586, 121918, 124128, 17568053, 126690782, 36671025, 50692925, 293861, 810427⟩, 37),
    (⟨1083388, 2039842, 0, 174010, 19113234, 76925490, 30613011, 19937552, 311451, 881193⟩, ⟨297058, 729435, 137153, 145403, 19255062, 140578501, 37024011, 50832468, 306289, 803498⟩, 43),
    (⟨1073582, 2009900, 0, 171553, 19137783, 77079569, 30656191, 19887064, 326113, 912661⟩, ⟨302982, 706606, 151911, 165501, 20883134, 154320470, 37386512, 50974008, 315357, 784055⟩, 49),
    (⟨1063735, 1979804, 0, 169182, 19163157, 77241605, 30700605, 19834320, 339921, 942259⟩, ⟨306085, 674488, 166197, 184301, 22441440, 167818326, 37758728, 51117564, 321181, 753448⟩, 56),
    (⟨1053762, 1949141, 0, 166804, 19182950, 77371381, 30732137, 19777623, 340569, 932713⟩, ⟨299734, 684973, 172630, 190027, 23281512, 175736072, 38063634, 51233874, 314965, 693164⟩, 62),
    (⟨1045817, 1924798, 0, 165040, 19204417, 77512470, 30769132, 19732354, 350549, 954441⟩, ⟨298585, 701254, 183361, 203019, 24400948, 185894720, 38374991, 51351497, 315446, 656599⟩, 70),
    (⟨1037747, 1899878, 0, 163222, 19219667, 77615414, 30792058, 19684028, 347775, 937952⟩, ⟨294743, 707669, 186452, 203699, 24830070, 190461918, 38870751, 51440581, 306074, 640927⟩, 75),
    (⟨1031746, 1881474, 0, 161982, 19236488, 77728353, 30820604, 19648532, 354773, 954062⟩, ⟨298506, 720379, 194120, 212244, 25588712, 197616652, 40056122, 51530413, 304359, 658682⟩, 81),
    (⟨1025732, 1863482, 0, 160781, 19253683, 77844952, 30849611, 19612503, 361618, 972904⟩, ⟨302313, 733468, 201642, 220282, 26314298, 204589651, 41190111, 51620998, 301789, 676856⟩, 87),
    (⟨1019703, 1847979, 0, 159620, 19271266, 77965343, 30879082, 19575988, 368331, 991778⟩, ⟨306171, 746969, 209020, 227814, 27006115, 211370202, 42271604, 51712340, 298414, 695429⟩, 94)]
def thr19 : List (Thr × Thr × ℕ) :=
  [(⟨1285483, 2575306, 0, 209685, 17864332, 71502102, 28798781, 20375430, 0, 0⟩, ⟨271651, 548446, 66796, 82027, 13850449, 55684769, 34036641, 50482959, 208762, 484140⟩, 6),
    (⟨1244764, 2454933, 0, 203097, 17901000, 71699556, 28861714, 20347563, 0, 90722⟩, ⟨276499, 563006, 60064, 79759, 14142439, 57172154, 34553401, 50722340, 220325, 511449⟩, 8),
    (⟨1214273, 2391761, 0, 196608, 17938834, 71908765, 28929421, 20301234, 7799, 247973⟩, ⟨280881, 576080, 72953, 77536, 14453234, 58774685, 35098865, 50968919, 225202, 514715⟩, 12),
    (⟨1195635, 2335558, 0, 190266, 17978137, 72132496, 29002095, 20236905, 56991, 375659⟩, ⟨284985, 691089, 83744, 75359, 14783992, 60500475, 35674541, 51222846, 225280, 685382⟩, 17),
    (⟨1176848, 2278740, 0, 184123, 18019261, 72374087, 29079862, 20155314, 99271, 479537⟩, ⟨288999, 795921, 89510, 73230, 15135874, 86801200, 36281935, 51484267, 249125, 819491⟩, 25),
    (⟨1157902, 2221299, 0, 178233, 18062584, 72637291, 29162769, 20057489, 135747, 564624⟩, ⟨302950, 843182, 125174, 95874, 16113347, 114717570, 36922554, 51753331, 293450, 889437⟩, 37),
    (⟨1138421, 2161567, 0, 172275, 18080030, 72753755, 29183293, 19935723, 106433, 450346⟩, ⟨292843, 726620, 113815, 74254, 16592228, 119613200, 37255795, 51890775, 271448, 754768⟩, 42),
    (⟨1128767, 2132120, 0, 169557, 18102958, 72899274, 29226250, 19873991, 120747, 481237⟩, ⟨294880, 713944, 129245, 95178, 18184467, 132720047, 37597906, 52030185, 283291, 749146⟩, 50),
    (⟨1119072, 2102536, 0, 166933, 18126612, 73052029, 29270402, 19809069, 134162, 509854⟩, ⟨298495, 690921, 144063, 115144, 19721122, 145689859, 37949078, 52171580, 292006, 731829⟩, 58),
    (⟨1109339, 2072829, 0, 164412, 18151042, 73212543, 29315733, 19741174, 146779, 536633⟩, ⟨301234, 658682, 158275, 134011, 21191980, 158429893, 38309497, 52314979, 297698, 704072⟩, 67),
    (⟨1099463, 2042499, 0, 161872, 18169814, 73339855, 29346816, 19668602, 146639, 525244⟩, ⟨300621, 645519, 163010, 138679, 21985206, 165905730, 38604619, 52431152, 291929, 647950⟩, 75),
    (⟨1091613, 2018524, 0, 160014, 18190428, 73479254, 29384351, 19610225, 155717, 544647⟩, ⟨302662, 654449, 173494, 151972, 23041912, 175495100, 38905876, 52548629, 292587, 626512⟩, 84),
    (⟨1083620, 1993898, 0, 158079, 18204765, 73579599, 29406393, 19548361, 152409, 526769⟩, ⟨303541, 658710, 174775, 151736, 23447306, 179809198, 39135904, 52637597, 283828, 644418⟩, 91),
    (⟨1077696, 1975838, 0, 156786, 18220876, 73690892, 29435182, 19502520, 158745, 541116⟩, ⟨305210, 666286, 182161, 160631, 24163495, 186563689, 39369477, 52727308, 282385, 664331⟩, 99),
    (⟨1071762, 1958476, 0, 155540, 18237330, 73805662, 29464365, 19455962, 164930, 558759⟩, ⟨306962, 674355, 189364, 169065, 24848504, 193146931, 39606639, 52817765, 280144, 684474⟩, 107),
    (⟨1065817, 1944179, 0, 154343, 18254137, 73924021, 29493940, 19408743, 170985, 576358⟩, ⟨308802, 682942, 196388, 177037, 25501660, 199548810, 40283559, 52908973, 277149, 704831⟩, 117)]
def thr20 : List (Thr × Thr × ℕ) :=
  [(⟨1288085, 2577929, 0, 204736, 16934062, 67780624, 27559167, 20719883, 0, 0⟩, ⟨361552, 723176, 66629, 80989, 14099558, 56670386, 34743001, 51723924, 203064, 483239⟩, 6),
    (⟨1269866, 2521894, 0, 197482, 16969240, 67973254, 27622853, 20686062, 0, 0⟩, ⟨354684, 702894, 60216, 78758, 14380211, 58099502, 35247166, 51963349, 217961, 518898⟩, 9),
    (⟨1251514, 2466637, 0, 190315, 17005794, 68179964, 27692505, 20628422, 0, 0⟩, ⟨348082, 683969, 54335, 76572, 14678573, 59637009, 35778907, 52209959, 224840, 525814⟩, 13),
    (⟨1232988, 2410666, 0, 183296, 17043986, 68403250, 27768179, 20547540, 0, 14321⟩, ⟨341892, 680499, 60125, 75093, 14995713, 61290397, 36339628, 52463896, 226014, 640881⟩, 19),
    (⟨1214271, 2353937, 0, 176496, 17084108, 68646068, 27849807, 20444340, 0, 111985⟩, ⟨336255, 778730, 90731, 98067, 15332702, 82059620, 36930728, 52725300, 231084, 768830⟩, 29),
    (⟨1195360, 2296493, 0, 171250, 17126467, 68911703, 27937190, 20320114, 0, 192619⟩, ⟨331316, 821656, 127501, 115830, 15690609, 108428859, 37553612, 52994315, 273259, 836624⟩, 43),
    (⟨1175798, 2236351, 0, 165397, 17142356, 69024866, 27954918, 20166938, 0, 78611⟩, ⟨325585, 707661, 107443, 90541, 15877742, 113062986, 37877410, 53131720, 251683, 707570⟩, 49),
    (⟨1166138, 2206858, 0, 164907, 17164689, 69171539, 27999867, 20088206, 0, 107912⟩, ⟨323644, 694297, 123336, 95513, 17195452, 125445576, 38209680, 53271080, 263121, 703349⟩, 59),
    (⟨1156435, 2177242, 0, 164073, 17187713, 69325442, 28046006, 20005312, 0, 135053⟩, ⟨321950, 671016, 138456, 99449, 18647379, 137699432, 38550596, 53412413, 271628, 688115⟩, 70),
    (⟨1146693, 2147525, 0, 162922, 17211468, 69487015, 28093280, 19918531, 0, 160400⟩, ⟨320518, 638902, 152817, 102413, 20037210, 149737058, 38900335, 53555737, 277299, 663035⟩, 82),
    (⟨1136786, 2117116, 0, 160349, 17229377, 69613714, 28124448, 19826104, 0, 148187⟩, ⟨318858, 622725, 155502, 97468, 20787156, 156804357, 39186595, 53671841, 271914, 610452⟩, 93),
    (⟨1128932, 2093179, 0, 159011, 17249355, 69753606, 28163327, 19751352, 0, 166384⟩, ⟨318104, 624636, 165891, 98608, 21785779, 165866519, 39478703, 53789240, 272794, 623298⟩, 106),
    (⟨1120911, 2068507, 0, 156389, 17262877, 69852702, 28184764, 19672521, 0, 147850⟩, ⟨316949, 624546, 164947, 92485, 22169336, 169947371, 39701676, 53878144, 264542, 644152⟩, 115),
    (⟨1114987, 2050553, 0, 155178, 17278440, 69964042, 28214378, 19613745, 0, 161291⟩, ⟨316628, 627207, 172153, 92749, 22846242, 176331489, 39928026, 53967784, 263384, 666168⟩, 127),
    (⟨1109055, 2033677, 0, 153894, 17294314, 70078705, 28244314, 19554012, 0, 178714⟩, ⟨316426, 630467, 179136, 92783, 23493716, 182554189, 40157793, 54058166, 261474, 688234⟩, 140),
    (⟨1103115, 2020544, 0, 152544, 17310507, 70196787, 28274559, 19493396, 0, 196018⟩, ⟨316348, 634345, 185902, 100228, 24111121, 188605922, 40391013, 54149292, 258855, 710342⟩, 155)]
def thr21 : List (Thr × Thr × ℕ) :=
  [(⟨1324178, 2648936, 0, 234488, 16078409, 64358150, 26491666, 21443168, 0, 0⟩, ⟨455550, 911875, 66416, 79844, 14362177, 57711066, 35482672, 53015687, 192408, 474458⟩, 6),
    (⟨1306016, 2594375, 0, 244319, 16112473, 64548444, 26557514, 21402780, 0, 0⟩, ⟨438561, 862236, 60297, 77647, 14632568, 59087447, 35975563, 53255318, 211573, 520867⟩, 9),
    (⟨1287649, 2538979, 0, 251368, 16148196, 64755874, 26630873, 21331690, 0, 0⟩, ⟨422503, 816533, 54668, 85894, 14919682, 60566138, 36495014, 53502122, 221064, 532685⟩, 15),
    (⟨1269043, 2482616, 0, 255749, 16185788, 64982654, 26711637, 21230627, 0, 0⟩, ⟨407482, 775285, 66328, 129157, 15224506, 62154061, 37042331, 53756234, 223723, 608256⟩, 22),
    (⟨1250185, 2425287, 0, 257608, 16225479, 65231344, 26799499, 21100757, 0, 0⟩, ⟨393601, 770020, 102543, 162498, 15548030, 77733645, 37618819, 54017788, 221712, 732784⟩, 33),
    (⟨1231083, 2367091, 0, 257131, 16267495, 65504728, 26893968, 20943710, 0, 0⟩, ⟨380963, 808177, 135505, 186453, 15891242, 102683247, 38225785, 54286921, 257954, 800069⟩, 52),
    (⟨1211175, 2305663, 0, 247954, 16281886, 65616256, 26908940, 20751059, 0, 0⟩, ⟨366045, 695843, 109974, 146288, 16070540, 107081711, 38541104, 54424371, 236212, 673719⟩, 60),
    (⟨1201382, 2275703, 0, 246006, 16303933, 65767002, 26957163, 20651040, 0, 0⟩, ⟨360575, 681404, 120771, 152092, 16295040, 118800689, 38864533, 54563766, 247514, 671012⟩, 73),
    (⟨1191542, 2245625, 0, 243607, 16326645, 65925108, 27006595, 20545614, 0, 0⟩, ⟨355468, 657427, 136271, 156260, 17669432, 130398875, 39196234, 54705123, 256029, 657758⟩, 88),
    (⟨1181660, 2215459, 0, 240794, 16350046, 66090928, 27057130, 20435127, 0, 0⟩, ⟨350737, 637954, 151032, 158934, 18985149, 141793631, 39536370, 54848459, 261843, 635060⟩, 107),
    (⟨1171582, 2184506, 0, 236312, 16367279, 66219287, 27089067, 20317700, 0, 0⟩, ⟨345412, 627150, 151158, 150139, 19695700, 148488644, 39814662, 54964564, 256745, 586120⟩, 123),
    (⟨1163613, 2160244, 0, 233514, 16386878, 66362361, 27130326, 20222363, 0, 0⟩, ⟨342162, 622968, 161614, 150472, 20641257, 157068966, 40098540, 55081955, 257911, 618706⟩, 144),
    (⟨1155447, 2135141, 0, 229223, 16399695, 66461854, 27151515, 20122129, 0, 0⟩, ⟨338077, 615155, 157860, 140362, 21005070, 160938408, 40315166, 55170847, 250007, 642462⟩, 159),
    (⟨1149438, 2117031, 0, 226853, 16414900, 66575320, 27182706, 20047071, 0, 0⟩, ⟨335962, 613487, 164993, 139782, 21646127, 166984471, 40535016, 55260471, 249147, 666633⟩, 179),
    (⟨1143423, 2100538, 0, 224389, 16430384, 66691994, 27214138, 19970750, 0, 0⟩, ⟨334000, 612520, 171859, 138877, 22259363, 172878297, 40758126, 55350830, 247567, 690690⟩, 203),
    (⟨1137401, 2088602, 0, 221842, 16446152, 66811948, 27245790, 19893261, 0, 0⟩, ⟨332193, 612267, 178467, 137677, 22844178, 178610849, 40984531, 55441928, 245308, 714630⟩, 231)]
def thr22 : List (Thr × Thr × ℕ) :=
  [(⟨1162857, 2330199, 0, 171071, 15223170, 60936037, 25255325, 21233442, 0, 0⟩, ⟨379032, 759032, 62245, 72526, 14399639, 57851223, 35631099, 53347946, 108667, 315702⟩, 6),
    (⟨1127683, 2226325, 0, 161407, 15255646, 61119539, 25320288, 21190439, 0, 0⟩, ⟨351922, 679248, 56156, 70328, 14659919, 59175762, 36112026, 53586686, 133766, 379337⟩, 9),
    (⟨1095337, 2133340, 0, 151815, 15289874, 61321217, 25393321, 21114197, 0, 0⟩, ⟨325867, 603793, 50517, 68175, 14936030, 60597112, 36618592, 53832586, 148684, 406582⟩, 14),
    (⟨1065440, 2049382, 0, 142401, 15326037, 61543090, 25474242, 21005500, 0, 0⟩, ⟨300922, 532947, 45308, 66067, 15228886, 62121670, 37152014, 54085776, 156428, 411069⟩, 20),
    (⟨1037634, 1972733, 0, 133284, 15364324, 61787456, 25562646, 20865606, 0, 0⟩, ⟨277144, 466994, 40512, 64007, 15539399, 73400019, 37713509, 54346385, 159277, 402452⟩, 28),
    (⟨1011589, 1901829, 0, 124595, 15404920, 62056781, 25657913, 20696268, 0, 0⟩, ⟨254589, 406213, 36108, 61996, 15868486, 96942541, 38304293, 54614541, 158939, 387371⟩, 41),
    (⟨984484, 1827413, 0, 115625, 15418102, 62164147, 25670977, 20489041, 0, 0⟩, ⟨229494, 350842, 30501, 59877, 16040279, 101100486, 38611049, 54751489, 119446, 265653⟩, 46),
    (⟨972635, 1795307, 0, 111669, 15439357, 62312585, 25719455, 20381078, 0, 0⟩, ⟨219019, 345292, 28505, 58903, 16217059, 112160197, 38925584, 54890373, 118453, 259134⟩, 54),
    (⟨961049, 1763834, 0, 107895, 15461245, 62468252, 25769125, 20267250, 0, 0⟩, ⟨208878, 339725, 26595, 57941, 16687139, 123106477, 39248049, 55031208, 117262, 252923⟩, 63),
    (⟨949695, 1732868, 0, 104321, 15483784, 62631448, 25819863, 20147928, 0, 0⟩, ⟨199078, 334203, 24770, 56992, 17929039, 133861430, 39578597, 55174010, 115948, 247189⟩, 73),
    (⟨938044, 1700734, 0, 100675, 15500170, 62756950, 25851274, 20021221, 0, 0⟩, ⟨188630, 326977, 22632, 56016, 18600049, 140183324, 39848957, 55289679, 107538, 222477⟩, 81),
    (⟨929252, 1676478, 0, 98127, 15519009, 62897541, 25892573, 19918217, 0, 0⟩, ⟨181267, 322592, 21276, 55275, 19492657, 148283023, 40124666, 55406626, 106502, 219102⟩, 91),
    (⟨920060, 1650799, 0, 95389, 15531097, 62994384, 25913042, 19810048, 0, 0⟩, ⟨174089, 316215, 19542, 54498, 19836446, 151938749, 40335004, 55495179, 98582, 227005⟩, 97),
    (⟨913599, 1632766, 0, 93679, 15545683, 63105695, 25944161, 19728928, 0, 0⟩, ⟨172957, 312994, 18581, 53952, 20441669, 157646900, 40548427, 55584459, 97884, 245694⟩, 105),
    (⟨907184, 1614769, 0, 92065, 15560525, 63220069, 25975479, 19646433, 0, 0⟩, ⟨171830, 309876, 17646, 53412, 21020658, 163211665, 40764968, 55674470, 97206, 263983⟩, 114),
    (⟨900810, 1596796, 0, 90550, 15575626, 63337570, 26006971, 19562664, 0, 0⟩, ⟨170710, 306875, 16738, 52876, 21572843, 168624517, 40984659, 55765215, 96553, 281866⟩, 123)]
def thr23 : List (Thr × Thr × ℕ) :=
  [(⟨1163586, 2331708, 0, 166468, 14987147, 59992201, 24992053, 21607741, 0, 0⟩, ⟨406376, 813925, 62100, 72026, 14486254, 58195061, 35873301, 53768233, 99006, 301286⟩, 6),
    (⟨1128991, 2229561, 0, 156242, 15019430, 60175968, 25058251, 21562491, 0, 0⟩, ⟨376466, 726032, 56098, 69837, 14743789, 59505497, 36351271, 54007106, 126034, 369925⟩, 9),
    (⟨1097191, 2138174, 0, 146089, 15053578, 60379151, 25133141, 21481264, 0, 0⟩, ⟨347801, 643212, 50533, 67693, 15016893, 60911130, 36854609, 54253135, 142249, 399937⟩, 15),
    (⟨1067808, 2055688, 0, 136121, 15089760, 60603676, 25216477, 21364904, 0, 0⟩, ⟨320427, 565698, 45388, 65595, 15306459, 62418204, 37384507, 54506449, 150857, 405869⟩, 21),
    (⟨1040487, 1980390, 0, 126471, 15128143, 60851712, 25307766, 21214767, 0, 0⟩, ⟨294392, 493724, 40646, 63544, 15613377, 72226982, 37942155, 54767174, 154291, 398012⟩, 30),
    (⟨1014895, 1910715, 0, 117279, 15168880, 61125559, 25406277, 21032746, 0, 0⟩, ⟨269742, 427524, 36288, 61541, 15938540, 95380749, 38528743, 55035437, 154372, 383444⟩, 43),
    (⟨988169, 1837251, 0, 107776, 15181623, 61233090, 25418514, 20810105, 0, 0⟩, ⟨242105, 356907, 30759, 59432, 16108242, 99476229, 38833262, 55172435, 113607, 257942⟩, 48),
    (⟨976518, 1805644, 0, 103599, 15202914, 61383957, 25468524, 20693861, 0, 0⟩, ⟨230678, 351043, 28781, 58462, 16282839, 110354683, 39145461, 55311365, 112807, 251899⟩, 57),
    (⟨965122, 1774638, 0, 99619, 15224832, 61542149, 25519743, 20571259, 0, 0⟩, ⟨219620, 345138, 26888, 57504, 16462445, 121122038, 39465491, 55452244, 111807, 246223⟩, 67),
    (⟨953951, 1744106, 0, 95854, 15247392, 61707938, 25572026, 20442697, 0, 0⟩, ⟨208938, 339254, 25078, 56560, 17644502, 131701750, 39793500, 55595086, 110686, 241096⟩, 78),
    (⟨942465, 1712342, 0, 92011, 15263643, 61834868, 25603958, 20306217, 0, 0⟩, ⟨197497, 331635, 22963, 55588, 18304879, 137922948, 40061752, 55710785, 102181, 216285⟩, 87),
    (⟨933807, 1688383, 0, 89338, 15282469, 61977524, 25646417, 20195178, 0, 0⟩, ⟨189473, 326926, 21618, 54850, 19183068, 145891632, 40335282, 55827758, 101315, 213532⟩, 97),
    (⟨924733, 1662948, 0, 86456, 15294383, 62075154, 25666959, 20078628, 0, 0⟩, ⟨180449, 320201, 19904, 54077, 19521593, 149490730, 40543939, 55916330, 93287, 228411⟩, 104),
    (⟨918365, 1645109, 0, 84669, 15308936, 62187960, 25698875, 19991147, 0, 0⟩, ⟨175854, 316716, 18950, 53534, 20117095, 155107180, 40755639, 56005628, 92730, 248034⟩, 113),
    (⟨912040, 1627296, 0, 82986, 15323733, 62303809, 25730963, 19902170, 0, 0⟩, ⟨174657, 313325, 18022, 52995, 20686809, 160582834, 40970416, 56095654, 92198, 267214⟩, 123),
    (⟨905753, 1609495, 0, 81411, 15338780, 62422757, 25763193, 19811804, 0, 0⟩, ⟨173465, 310044, 17119, 52462, 21230174, 165909305, 41188300, 56186412, 91696, 285949⟩, 133)]
def thr24 : List (Thr × Thr × ℕ) :=
  [(⟨1163938, 2332469, 0, 161332, 14758443, 59077702, 24748167, 22033478, 0, 0⟩, ⟨433446, 868265, 61947, 71510, 14574075, 58543808, 36118489, 54193091, 88379, 285219⟩, 6),
    (⟨1129921, 2232050, 0, 150481, 14790578, 59262047, 24815796, 21985918, 0, 0⟩, ⟨400799, 772443, 56028, 69330, 14828952, 59840584, 36593607, 54432109, 117478, 359231⟩, 10),
    (⟨1098668, 2142263, 0, 139701, 14824702, 59467149, 24892787, 21899424, 0, 0⟩, ⟨369582, 682415, 50536, 67194, 15099144, 61230996, 37093833, 54678280, 135087, 392228⟩, 15),
    (⟨1069801, 2061253, 0, 129119, 14860968, 59694845, 24978831, 21774906, 0, 0⟩, ⟨339831, 598367, 45454, 65105, 15385523, 62721140, 37620330, 54931731, 144628, 399728⟩, 22),
    (⟨1042964, 1987307, 0, 118875, 14899518, 59947168, 25073340, 21613826, 0, 0⟩, ⟨311585, 520489, 40765, 63062, 15688959, 71096989, 38174265, 55192585, 148696, 392705⟩, 31),
    (⟨1017826, 1918858, 0, 109125, 14940479, 60226249, 25175464, 21418227, 0, 0⟩, ⟨284882, 448967, 36451, 61068, 16010322, 93874754, 38756801, 55460968, 149231, 378705⟩, 45),
    (⟨991475, 1846330, 0, 99031, 14952787, 60334163, 25186880, 21179036, 0, 0⟩, ⟨254759, 363564, 30997, 58967, 16177999, 97910667, 39059158, 55598023, 107143, 249259⟩, 51),
    (⟨980022, 1815215, 0, 94608, 14974153, 60487848, 25238605, 21053912, 0, 0⟩, ⟨242397, 356993, 29037, 58001, 16350484, 108614003, 39369103, 55737006, 106553, 243730⟩, 60),
    (⟨968815, 1784667, 0, 90397, 14996143, 60648975, 25291558, 20921896, 0, 0⟩, ⟨230439, 350756, 27161, 57048, 16527887, 119208559, 39686780, 55877935, 105759, 238631⟩, 71),
    (⟨957825, 1754560, 0, 86422, 15018764, 60817784, 25345577, 20783420, 0, 0⟩, ⟨218890, 344518, 25366, 56107, 17370720, 129619112, 40012335, 56020824, 104845, 234155⟩, 83),
    (⟨946501, 1723151, 0, 82359, 15034903, 60946443, 25378127, 20636443, 0, 0⟩, ⟨206477, 336516, 23274, 55140, 18020876, 135743430, 40278549, 56136558, 96246, 209256⟩, 93),
    (⟨937975, 1699478, 0, 79545, 15053748, 61091525, 25421896, 20516777, 0, 0⟩, ⟨197803, 331489, 21939, 54405, 18885167, 143585783, 40549972, 56253564, 95563, 212488⟩, 105),
    (⟨929017, 1674271, 0, 76505, 15065502, 61190157, 25442566, 20391222, 0, 0⟩, ⟨188002, 324424, 20245, 53635, 19218660, 147130631, 40757004, 56342159, 87427, 229324⟩, 113),
    (⟨922741, 1656615, 0, 74631, 15080044, 61304737, 25475387, 20296910, 0, 0⟩, ⟨181825, 320679, 19297, 53094, 19804800, 152658749, 40967039, 56431477, 87021, 249869⟩, 123),
    (⟨916503, 1638972, 0, 72871, 15094822, 61422344, 25508352, 20200972, 0, 0⟩, ⟨177584, 317023, 18375, 52559, 20365584, 158048605, 41180110, 56521524, 86647, 269932⟩, 133),
    (⟨910301, 1621330, 0, 71229, 15109837, 61543025, 25541429, 20103523, 0, 0⟩, ⟨176323, 313467, 17478, 52028, 20900463, 163291950, 41396247, 56612300, 86306, 289509⟩, 145)]
def thr25 : List (Thr × Thr × ℕ) :=
  [(⟨1164683, 2334027, 0, 155710, 14537695, 58195109, 24527203, 22525436, 0, 0⟩, ⟨461412, 924391, 61812, 71018, 14664777, 58904161, 36371049, 54629625, 77216, 268426⟩, 6),
    (⟨1131248, 2235344, 0, 144161, 14569736, 58380420, 24596508, 22475468, 0, 0⟩, ⟨426093, 820834, 55976, 68846, 14917084, 60187736, 36843431, 54868810, 108533, 348181⟩, 10),
    (⟨1100545, 2152300, 0, 132686, 14603905, 58587968, 24675915, 22383323, 0, 0⟩, ⟨392386, 723781, 50556, 66720, 15184462, 61563438, 37340668, 55115145, 127626, 384327⟩, 16),
    (⟨1072197, 2102456, 0, 121420, 14640336, 58819491, 24765042, 22249983, 0, 0⟩, ⟨360320, 633375, 45536, 64639, 15467761, 63037214, 37863899, 55368753, 138150, 393435⟩, 23),
    (⟨1045848, 2047513, 0, 110517, 14679145, 59076887, 24863201, 22077031, 0, 0⟩, ⟨329923, 549763, 40901, 62605, 15767831, 70014694, 38414263, 55629758, 142874, 387221⟩, 33),
    (⟨1021167, 1989677, 0, 100148, 14720428, 59362108, 24969413, 21866671, 0, 0⟩, ⟨301224, 473087, 36632, 60619, 16085521, 92430371, 38992901, 55898283, 143871, 373738⟩, 49),
    (⟨995187, 1856231, 0, 89399, 14732304, 59470672, 24980012, 21609430, 0, 0⟩, ⟨268678, 380872, 31253, 58527, 16251239, 96410015, 39293178, 56035405, 100363, 240059⟩, 54),
    (⟨983932, 1825605, 0, 84702, 14753796, 59627673, 25033686, 21474633, 0, 0⟩, ⟨255410, 363268, 29312, 57565, 16421681, 106944962, 39600950, 56174453, 99984, 235035⟩, 64),
    (⟨972914, 1795509, 0, 80236, 14775907, 59792256, 25088614, 21332361, 0, 0⟩, ⟨242581, 356706, 27453, 56615, 16596953, 117373448, 39916361, 56315443, 99397, 230509⟩, 76),
    (⟨962104, 1765816, 0, 76026, 14798640, 59964628, 25144610, 21183079, 0, 0⟩, ⟨230194, 350123, 25673, 55679, 17108902, 127621530, 40239551, 56458390, 98692, 226685⟩, 89),
    (⟨950941, 1734746, 0, 71720, 14814694, 60095398, 25177906, 21024652, 0, 0⟩, ⟨216837, 341744, 23605, 54715, 17749300, 133653219, 40503802, 56574167, 89983, 201665⟩, 100),
    (⟨942545, 1711347, 0, 68750, 14833598, 60243363, 25223177, 20895582, 0, 0⟩, ⟨207537, 336406, 22280, 53984, 18600266, 141374413, 40773196, 56691215, 89485, 215306⟩, 113),
    (⟨933701, 1686352, 0, 65531, 14845207, 60343271, 25244040, 20760197, 0, 0⟩, ⟨196982, 329007, 20606, 53217, 18928991, 144867690, 40978660, 56779839, 81226, 232608⟩, 122),
    (⟨927514, 1668867, 0, 63562, 14859769, 60459976, 25277906, 20658437, 0, 0⟩, ⟨190360, 325010, 19665, 52679, 19506166, 150311208, 41187090, 56869186, 80975, 254116⟩, 134),
    (⟨921363, 1651382, 0, 61716, 14874555, 60579698, 25311889, 20554907, 0, 0⟩, ⟨183902, 321092, 18750, 52145, 20058406, 155618947, 41398516, 56959259, 80759, 275102⟩, 146),
    (⟨915244, 1633884, 0, 59998, 14889568, 60702476, 25345949, 20449733, 0, 0⟩, ⟨179345, 317269, 17860, 51617, 20585168, 160782789, 41612967, 57050060, 80583, 295566⟩, 159)]
def thr26 : List (Thr × Thr × ℕ) :=
  [(⟨1163561, 2331859, 0, 149216, 14320126, 57325284, 24318706, 23062880, 0, 0⟩, ⟨487160, 976074, 61611, 70417, 14754718, 59261502, 36621673, 55063188, 63787, 247410⟩, 6),
    (⟨1130716, 2287683, 0, 136881, 14352111, 57511817, 24389866, 23010472, 0, 0⟩, ⟨449182, 864802, 55854, 68253, 15004489, 60532049, 37091355, 55302537, 97524, 333465⟩, 10),
    (⟨1100571, 2244040, 0, 124621, 14386370, 57722164, 24471915, 22912434, 0, 0⟩, ⟨412988, 760708, 50502, 66134, 15269090, 61893241, 37585643, 55549032, 118265, 373186⟩, 17),
    (⟨1072750, 2191896, 0, 112584, 14423019, 57957967, 24564397, 22769830, 0, 0⟩, ⟨378599, 663892, 45541, 64061, 15549352, 63350880, 38105651, 55802796, 129909, 384249⟩, 25),
    (⟨1053138, 2133926, 0, 100938, 14462150, 58220980, 24666518, 22584367, 0, 0⟩, ⟨346034, 574456, 40955, 62035, 15846103, 68956085, 38652494, 56063949, 135412, 379149⟩, 35),
    (⟨1034170, 2072538, 0, 89869, 14503824, 58512974, 24777164, 22358427, 0, 0⟩, ⟨315314, 492502, 42632, 60057, 16160173, 91016078, 39227287, 56332614, 136981, 366465⟩, 54),
    (⟨997069, 1862497, 0, 78383, 14515269, 58622377, 24786956, 22082079, 0, 0⟩, ⟨280344, 393436, 31419, 57972, 16323961, 94941348, 39525513, 56469802, 92054, 228550⟩, 57),
    (⟨986012, 1832357, 0, 73377, 14536920, 58783041, 24842752, 21937054, 0, 0⟩, ⟨266151, 369582, 29495, 57014, 16492390, 105311090, 39831144, 56608913, 91939, 224181⟩, 68),
    (⟨975185, 1802709, 0, 68624, 14559187, 58951446, 24899832, 21783934, 0, 0⟩, ⟨252430, 362697, 27651, 56069, 16665563, 115576718, 40144320, 56749963, 91612, 220376⟩, 81),
    (⟨964556, 1773423, 0, 64148, 14582068, 59127764, 24957986, 21623222, 0, 0⟩, ⟨239182, 355767, 25885, 55136, 16853163, 125665558, 40465181, 56892966, 91168, 217355⟩, 96),
    (⟨953553, 1742683, 0, 59567, 14598056, 59260914, 24992123, 21452670, 0, 0⟩, ⟨224866, 347013, 23838, 54176, 17484044, 131606805, 40727495, 57008787, 82382, 192317⟩, 108),
    (⟨945287, 1719546, 0, 56420, 14617047, 59412084, 25039039, 21313648, 0, 0⟩, ⟨214917, 341364, 22522, 53448, 18321973, 139209393, 40994888, 57125875, 82111, 212069⟩, 123),
    (⟨936555, 1694751, 0, 53002, 14628520, 59513460, 25060147, 21167852, 0, 0⟩, ⟨203595, 333632, 20866, 52684, 18646076, 142652566, 41198808, 57214528, 73754, 229739⟩, 133),
    (⟨930456, 1677426, 0, 50923, 14643121, 59632541, 25095165, 21058207, 0, 0⟩, ⟨196509, 329382, 19931, 52148, 19214488, 148013366, 41405655, 57303902, 73688, 252109⟩, 146),
    (⟨924390, 1660086, 0, 48979, 14657937, 59754632, 25130270, 20946643, 0, 0⟩, ⟨189597, 325204, 19021, 51616, 19758380, 153240857, 41615459, 57394001, 73663, 273918⟩, 161),
    (⟨918353, 1642719, 0, 47175, 14672967, 59879764, 25165419, 20833291, 0, 0⟩, ⟨182859, 321112, 18136, 51090, 20277217, 158327052, 41828250, 57484826, 73684, 295165⟩, 176)]
def thr27 : List (Thr × Thr × ℕ) :=
  [(⟨1153558, 2394927, 0, 141240, 14105652, 56467706, 24096455, 23500464, 0, 0⟩, ⟨498084, 998064, 61074, 69294, 14824058, 59536486, 36817952, 55408080, 43030, 211327⟩, 6),
    (⟨1136391, 2361962, 0, 128043, 14137532, 56655000, 24169138, 23446020, 0, 0⟩, ⟨457494, 879159, 55373, 67136, 15071345, 60794284, 37284919, 55647499, 79336, 304291⟩, 11),
    (⟨1122901, 2316632, 0, 114924, 14171814, 56867462, 24253387, 23342976, 0, 0⟩, ⟨418819, 767930, 50069, 65022, 15333234, 62141313, 37776253, 55894061, 101999, 348638⟩, 17),
    (⟨1106643, 2261986, 0, 102043, 14208595, 57106647, 24348684, 23192464, 0, 0⟩, ⟨382068, 664435, 45146, 62954, 15610534, 63583239, 38293047, 56147886, 115125, 362969⟩, 26),
    (⟨1088240, 2200883, 0, 89585, 14247945, 57374181, 24454141, 22996304, 0, 0⟩, ⟨347253, 568729, 40589, 60933, 15904055, 67912473, 38836392, 56409094, 121822, 360424⟩, 38),
    (⟨1068279, 2135917, 0, 77752, 14289896, 57671676, 24568533, 22757027, 0, 0⟩, ⟨314385, 480867, 41614, 58960, 16214607, 89623285, 39407378, 56677805, 124412, 350022⟩, 58),
    (⟨994192, 1903049, 0, 65461, 14300943, 57781647, 24577607, 22464300, 0, 0⟩, ⟨276965, 381477, 31121, 56881, 16376522, 93494528, 39703577, 56815012, 78563, 209346⟩, 60),
    (⟨982847, 1866680, 0, 60117, 14322700, 57945289, 24635195, 22310511, 0, 0⟩, ⟨261756, 374404, 29203, 55925, 16542998, 103701946, 40007095, 56954139, 78938, 206312⟩, 72),
    (⟨971369, 1830387, 0, 55048, 14345069, 58116799, 24694090, 22148095, 0, 0⟩, ⟨247040, 367200, 27363, 54982, 16714137, 113807506, 40318070, 57095203, 79096, 203892⟩, 87),
    (⟨959812, 1794356, 0, 50281, 14368043, 58296322, 24754068, 21977586, 0, 0⟩, ⟨232817, 359930, 25599, 54051, 16890039, 123739772, 40636636, 57238217, 79137, 202316⟩, 103),
    (⟨947092, 1732298, 0, 45399, 14383948, 58431367, 24788905, 21796639, 0, 0⟩, ⟨217451, 350807, 23562, 53094, 17222332, 129591847, 40897047, 57354043, 70498, 177869⟩, 113),
    (⟨938948, 1709405, 0, 42058, 14402987, 58585132, 24837211, 21649086, 0, 0⟩, ⟨206747, 344852, 22246, 52367, 18047429, 137077717, 41162475, 57471135, 70627, 178534⟩, 130),
    (⟨930322, 1684800, 0, 38421, 14414323, 58687651, 24858513, 21494360, 0, 0⟩, ⟨194584, 336793, 20599, 51605, 18366953, 140471314, 41364879, 57559789, 62344, 192841⟩, 141),
    (⟨924306, 1667622, 0, 36221, 14428937, 58808647, 24894503, 21377956, 0, 0⟩, ⟨187615, 332293, 19663, 51071, 18926735, 145750643, 41570173, 57649163, 62589, 215479⟩, 155),
    (⟨918320, 1650416, 0, 34169, 14443756, 58932644, 24930554, 21259503, 0, 0⟩, ⟨186152, 327858, 18751, 50540, 19462402, 150899067, 41778388, 57739260, 62880, 237507⟩, 170),
    (⟨912358, 1633169, 0, 32269, 14458779, 59059665, 24966622, 21139141, 0, 0⟩, ⟨184686, 323501, 17863, 50015, 19973428, 155908726, 41989551, 57830082, 63221, 258925⟩, 187)]
def thr28 : List (Thr × Thr × ℕ) :=
  [(⟨1186026, 2474525, 0, 135167, 13945225, 55826477, 23965390, 24024402, 0, 0⟩, ⟨518901, 1039839, 60920, 83598, 14898247, 59831445, 37023923, 55763154, 30781, 191981⟩, 6),
    (⟨1175838, 2441047, 0, 121210, 13977145, 56015316, 24039914, 23967916, 0, 0⟩, ⟨476301, 915104, 55281, 66669, 15143652, 61079577, 37488910, 56002727, 69258, 290594⟩, 11),
    (⟨1161974, 2394194, 0, 107333, 14011600, 56230774, 24126728, 23859671, 0, 0⟩, ⟨435746, 798559, 50029, 64561, 15403481, 62415836, 37978081, 56249440, 93399, 338142⟩, 18),
    (⟨1145110, 2337180, 0, 93709, 14048676, 56474325, 24225246, 23700876, 0, 0⟩, ⟨397242, 690231, 45152, 62499, 15678527, 63845782, 38492507, 56503413, 107528, 354218⟩, 27),
    (⟨1125905, 2273045, 0, 80535, 14088416, 56747477, 24334488, 23493466, 0, 0⟩, ⟨360793, 590145, 40634, 60484, 15969584, 67148295, 39033262, 56764764, 114920, 352659⟩, 40),
    (⟨1104981, 2204569, 0, 68029, 14130827, 57051686, 24453109, 23240138, 0, 0⟩, ⟨326404, 498326, 47197, 58517, 16277447, 88598921, 39601416, 57033610, 118020, 342959⟩, 64),
    (⟨1029596, 1967191, 0, 55030, 14141539, 57162729, 24461560, 22930086, 0, 0⟩, ⟨287155, 387079, 31253, 56443, 16437929, 92432357, 39896104, 57170882, 70941, 198605⟩, 66),
    (⟨1017669, 1928830, 0, 49389, 14163497, 57330015, 24521185, 22767044, 0, 0⟩, ⟨271252, 379775, 29349, 55490, 16602910, 102519376, 40198044, 57310073, 71551, 196145⟩, 80),
    (⟨1005591, 1890533, 0, 44042, 14186065, 57505332, 24582150, 22594811, 0, 0⟩, ⟨255867, 372323, 27521, 54550, 16772490, 112506407, 40507370, 57451197, 71938, 194359⟩, 96),
    (⟨993422, 1852506, 0, 39019, 14209233, 57688794, 24644208, 22413954, 0, 0⟩, ⟨241000, 364787, 25769, 53622, 16946767, 122322962, 40824216, 57594269, 72210, 193489⟩, 116),
    (⟨970067, 1779223, 0, 33872, 14225127, 57826298, 24679909, 22222013, 0, 0⟩, ⟨224914, 355378, 23749, 52668, 17089638, 128110076, 41083198, 57710139, 63508, 169036⟩, 127),
    (⟨960180, 1748996, 0, 30360, 14244296, 57983289, 24729815, 22065447, 0, 0⟩, ⟨213726, 349185, 22440, 51943, 17847337, 135510085, 41347147, 57827274, 63836, 175050⟩, 145),
    (⟨938942, 1692070, 0, 26530, 14255547, 58087384, 24751419, 21901271, 0, 0⟩, ⟨200988, 340871, 20808, 51184, 18163620, 138868241, 41548410, 57915959, 55471, 192679⟩, 152),
    (⟨931472, 1674999, 0, 24224, 14270238, 58210792, 24788539, 21777725, 0, 0⟩, ⟨193003, 336177, 19877, 50650, 18717085, 144087901, 41752534, 58005362, 55880, 216061⟩, 169),
    (⟨924031, 1657887, 0, 22077, 14285124, 58337205, 24825696, 21651991, 0, 0⟩, ⟨188802, 331543, 18970, 50122, 19246743, 149178536, 41959550, 58095487, 56339, 238803⟩, 186),
    (⟨916628, 1640720, 0, 20092, 14300205, 58466640, 24862842, 21524218, 0, 0⟩, ⟨187283, 326981, 18087, 49598, 19752074, 154132380, 42169484, 58186337, 56853, 260909⟩, 206)]
def thr29 : List (Thr × Thr × ℕ) :=
  [(⟨1226798, 2556558, 0, 128620, 13789813, 55205361, 23849444, 24594181, 0, 0⟩, ⟨539544, 1081263, 60761, 102800, 14973233, 60129636, 37231879, 56121291, 29762, 171226⟩, 6),
    (⟨1216453, 2522415, 0, 113836, 13821810, 55396008, 23925985, 24535615, 0, 0⟩, ⟨494970, 950803, 55181, 66190, 15216804, 61368349, 37694946, 56361026, 58475, 275800⟩, 11),
    (⟨1202149, 2473819, 0, 99137, 13856487, 55614823, 24015585, 24421931, 0, 0⟩, ⟨452571, 829039, 49981, 64088, 15474625, 62694116, 38182017, 56607899, 84176, 326728⟩, 19),
    (⟨1184598, 2414163, 0, 84706, 13893912, 55863194, 24117592, 24254420, 0, 0⟩, ⟨412344, 715967, 45148, 62032, 15747475, 64112391, 38694145, 56862026, 99366, 344651⟩, 29),
    (⟨1164496, 2346677, 0, 70755, 13934107, 56142508, 24230926, 24035142, 0, 0⟩, ⟨374290, 611583, 46309, 60023, 16036132, 66417129, 39232385, 57123527, 107493, 344137⟩, 44),
    (⟨1142506, 2274338, 0, 57518, 13977047, 56454062, 24354116, 23766970, 0, 0⟩, ⟨338408, 515882, 52668, 58061, 16341375, 87616980, 39797789, 57392517, 111133, 335179⟩, 71),
    (⟨1065699, 2032025, 0, 43751, 13987427, 56566367, 24361954, 23438570, 0, 0⟩, ⟨297357, 399501, 31373, 55993, 16500461, 91415037, 40091008, 57529857, 62780, 187015⟩, 72),
    (⟨1053129, 1991476, 0, 37787, 14009620, 56737646, 24423786, 23265740, 0, 0⟩, ⟨280771, 385273, 29483, 55043, 16663985, 101386257, 40391413, 57669114, 63637, 185161⟩, 89),
    (⟨1040390, 1950978, 0, 32138, 14032423, 56917134, 24486995, 23083121, 0, 0⟩, ⟨264728, 377576, 27667, 54105, 16832045, 111259372, 40699137, 57810303, 64267, 184043⟩, 108),
    (⟨1027546, 1910760, 0, 26836, 14055821, 57104917, 24551313, 22891316, 0, 0⟩, ⟨249228, 369778, 25926, 53180, 17004739, 120964821, 41014311, 57953437, 64782, 183914⟩, 132),
    (⟨1003456, 1835137, 0, 21402, 14071723, 57245149, 24587974, 22687732, 0, 0⟩, ⟨232431, 360084, 23922, 52228, 17146295, 126689972, 41271902, 58069355, 56018, 159466⟩, 145),
    (⟨993016, 1803206, 0, 17704, 14091051, 57405689, 24639623, 22521626, 0, 0⟩, ⟨220768, 353656, 22621, 51506, 17656335, 134007712, 41534414, 58186535, 56557, 174364⟩, 168),
    (⟨971172, 1734826, 0, 13665, 14102228, 57511555, 24661583, 22347442, 0, 0⟩, ⟨207462, 345090, 21003, 50748, 17969569, 137332364, 41734566, 58275253, 48108, 192272⟩, 174),
    (⟨963286, 1711106, 0, 11243, 14117016, 57637625, 24699938, 22216334, 0, 0⟩, ⟨199137, 340206, 20077, 50217, 18516997, 142494967, 41937553, 58364689, 48689, 216389⟩, 193),
    (⟨955431, 1687911, 0, 8992, 14131991, 57766709, 24738307, 22082893, 0, 0⟩, ⟨191515, 335375, 19175, 49690, 19040917, 147530397, 42143402, 58454845, 49325, 239838⟩, 213),
    (⟨947616, 1666698, 0, 6915, 14147151, 57898816, 24776638, 22014224, 0, 0⟩, ⟨189945, 330611, 18296, 49168, 19540814, 152430979, 42352141, 58545725, 50021, 262623⟩, 236)]
def thr30 : List (Thr × Thr × ℕ) :=
  [(⟨1268900, 2641253, 0, 121570, 13639504, 54604708, 23749214, 25212559, 0, 0⟩, ⟨560007, 1122324, 60596, 124075, 15049014, 60431055, 37441819, 56482493, 30891, 149009⟩, 7),
    (⟨1258347, 2606285, 0, 105888, 13671617, 54797444, 23827959, 25151874, 0, 0⟩, ⟨513499, 986265, 55073, 65700, 15290799, 61660592, 37903025, 56722397, 46962, 259867⟩, 12),
    (⟨1243535, 2555717, 0, 90296, 13706566, 55019995, 23920584, 25032501, 0, 0⟩, ⟨469295, 859417, 49924, 63604, 15546665, 62976139, 38388059, 56969435, 74308, 314362⟩, 20),
    (⟨1225211, 2493125, 0, 74989, 13744399, 55273667, 24026363, 24855817, 0, 0⟩, ⟨427390, 747238, 45135, 61553, 15817375, 64383045, 38897957, 57223725, 90617, 334234⟩, 32),
    (⟨1204113, 2421946, 0, 60194, 13785115, 55559719, 24144114, 24624019, 0, 0⟩, ⟨387777, 636215, 52302, 59549, 16103693, 65886661, 39433755, 57485383, 99520, 334823⟩, 48),
    (⟨1180943, 2345366, 0, 46163, 13828658, 55879285, 24272236, 24340166, 0, 0⟩, ⟨350449, 533826, 57909, 57593, 16406385, 86679248, 39996488, 57754524, 103728, 326650⟩, 80),
    (⟨1102581, 2097666, 0, 31564, 13838709, 55993055, 24279474, 23992334, 0, 0⟩, ⟨307600, 412305, 31482, 55530, 16564110, 90444503, 40288280, 57891937, 54057, 174536⟩, 81),
    (⟨1089305, 2054717, 0, 25250, 13861174, 56168695, 24343696, 23809152, 0, 0⟩, ⟨290350, 390897, 29604, 54583, 16726214, 100304704, 40587194, 58031264, 55174, 173319⟩, 100),
    (⟨1075839, 2011809, 0, 19273, 13884250, 56352742, 24409336, 23615545, 0, 0⟩, ⟨273667, 382958, 27800, 53647, 16892795, 110068705, 40893360, 58172520, 56060, 172904⟩, 124),
    (⟨1062253, 1969187, 0, 13669, 13907915, 56545251, 24476105, 23412155, 0, 0⟩, ⟨257551, 374901, 26070, 52725, 17063946, 119667846, 41206908, 58315720, 56831, 173555⟩, 154),
    (⟨1037358, 1891003, 0, 7922, 13923847, 56688499, 24513830, 23196244, 0, 0⟩, ⟨240048, 364926, 24083, 51776, 17204222, 125334177, 41463148, 58431689, 48005, 149120⟩, 170),
    (⟨1026311, 1857203, 0, 4021, 13943363, 56852930, 24567375, 23020043, 0, 0⟩, ⟨227922, 358266, 22789, 51055, 17474847, 132573400, 41724261, 58548918, 48765, 173416⟩, 200),
    (⟨1003802, 1786798, 0, 0, 13954479, 56960773, 24589749, 22835255, 0, 0⟩, ⟨214043, 349451, 21185, 50300, 17785236, 135866591, 41923335, 58637672, 40233, 191606⟩, 207),
    (⟨995460, 1761736, 0, 0, 13969386, 57089772, 24629454, 22696146, 0, 0⟩, ⟨205387, 344377, 20264, 49770, 18326918, 140974871, 42125214, 58727142, 40995, 216450⟩, 231),
    (⟨987150, 1737247, 0, 0, 13984472, 57221797, 24669150, 22647918, 0, 0⟩, ⟨196933, 339352, 19366, 49244, 18845384, 145957803, 42329929, 58817332, 41817, 240600⟩, 259),
    (⟨978882, 1714913, 0, 0, 13999733, 57356852, 24708778, 22607572, 0, 0⟩, ⟨192671, 334387, 18492, 48723, 19340122, 150807799, 42537506, 58908244, 42705, 264057⟩, 290)]
def thr31 : List (Thr × Thr × ℕ) :=
  [(⟨1312452, 2728853, 0, 113988, 13494385, 54024879, 23665333, 25882470, 0, 0⟩, ⟨580279, 1163002, 60425, 147653, 15125594, 60735711, 37653753, 56846777, 32009, 125268⟩, 7),
    (⟨1301639, 2692894, 0, 97331, 13526658, 54219997, 23746480, 25819630, 0, 0⟩, ⟨531871, 1021439, 54959, 65198, 15365639, 61956312, 38113156, 57086856, 34685, 242747⟩, 12),
    (⟨1286246, 2640107, 0, 80768, 13561931, 54446687, 23842380, 25694306, 0, 0⟩, ⟨485895, 896443, 49859, 63107, 15619600, 63261904, 38596214, 57334068, 63765, 301001⟩, 21),
    (⟨1267059, 2574269, 0, 64511, 13600235, 54706167, 23952234, 25507969, 0, 0⟩, ⟨442339, 804133, 45244, 61061, 15888226, 64657736, 39103948, 57588528, 81253, 322927⟩, 34),
    (⟨1244856, 2499030, 0, 48801, 13641543, 54999566, 24074749, 25262961, 0, 0⟩, ⟨401190, 683666, 57981, 59062, 16172267, 66149058, 39637375, 57850349, 90975, 324681⟩, 54),
    (⟨1220388, 2417804, 0, 33908, 13685767, 55327853, 24208191, 24962543, 0, 0⟩, ⟨362438, 551745, 62778, 57111, 16472473, 85787760, 40197515, 58119648, 95784, 317334⟩, 92),
    (⟨1140330, 2164231, 0, 18407, 13695492, 55443303, 24214843, 24594132, 0, 0⟩, ⟨317822, 425174, 31578, 55054, 16628872, 89522954, 40487920, 58257138, 44744, 161123⟩, 91),
    (⟨1126277, 2118658, 0, 11712, 13718268, 55623696, 24281649, 24400000, 0, 0⟩, ⟨299918, 396648, 29713, 54109, 16789594, 99277126, 40785386, 58396539, 46136, 160576⟩, 115),
    (⟨1112014, 2073110, 0, 5379, 13741655, 55812713, 24349921, 24194770, 0, 0⟩, ⟨282604, 388469, 27921, 53176, 16954732, 108937027, 41090039, 58537867, 47291, 160899⟩, 146),
    (⟨1097615, 2027861, 0, 0, 13765629, 56010377, 24419345, 23979123, 0, 0⟩, ⟨265882, 380156, 26201, 52256, 17124379, 118434877, 41402006, 58681137, 48332, 162369⟩, 185),
    (⟨1071838, 1946876, 0, 0, 13781611, 56156947, 24458247, 23750159, 0, 0⟩, ⟨247682, 369903, 24230, 51310, 17263408, 124045698, 41656932, 58797160, 39444, 142731⟩, 205),
    (⟨1060127, 1911031, 0, 0, 13801349, 56325634, 24513855, 23563276, 0, 0⟩, ⟨235100, 363012, 22944, 50591, 17405431, 131210336, 41916687, 58914441, 40437, 172240⟩, 247),
    (⟨1036891, 1838410, 0, 0, 13812415, 56435675, 24536707, 23377747, 0, 0⟩, ⟨220657, 353950, 21353, 49837, 17611111, 134474231, 42114710, 59003233, 31820, 190718⟩, 254),
    (⟨1028048, 1811877, 0, 0, 13827465, 56567885, 24577884, 23334280, 0, 0⟩, ⟨211673, 348690, 20437, 49309, 18147356, 139531061, 42315514, 59092740, 32773, 216282⟩, 289),
    (⟨1019240, 1785972, 0, 0, 13842685, 56703140, 24619029, 23289444, 0, 0⟩, ⟨202900, 343472, 19544, 48785, 18660666, 144464340, 42519125, 59182965, 33790, 241124⟩, 329),
    (⟨1010476, 1762407, 0, 0, 13858071, 56841436, 24660079, 23243334, 0, 0⟩, ⟨195461, 338309, 18674, 48265, 19150534, 149266565, 42725571, 59273912, 34879, 265247⟩, 377)]
def thr32 : List (Thr × Thr × ℕ) :=
  [(⟨1358556, 2821559, 0, 105909, 13355409, 53469702, 23602747, 26624270, 0, 0⟩, ⟨601565, 1205704, 60276, 174520, 15204747, 61050710, 37872331, 57221675, 33184, 101240⟩, 7),
    (⟨1347433, 2784444, 0, 88193, 13387897, 53667602, 23686569, 26559201, 0, 0⟩, ⟨551294, 1058747, 54866, 64727, 15443103, 62262635, 38329998, 57461946, 30411, 225670⟩, 13),
    (⟨1331380, 2729168, 0, 70578, 13423565, 53898981, 23786093, 26427535, 0, 0⟩, ⟨503580, 967051, 49816, 62641, 15695215, 63558558, 38811155, 57709347, 53118, 287800⟩, 23),
    (⟨1311226, 2659718, 0, 53289, 13462424, 54164969, 23900439, 26230844, 0, 0⟩, ⟨458408, 867394, 51197, 60601, 15961816, 64943631, 39316802, 57963991, 71820, 311770⟩, 38),
    (⟨1287794, 2579978, 0, 40115, 13504419, 54466560, 24028201, 25971633, 0, 0⟩, ⟨415759, 736472, 64104, 58607, 16243644, 66423004, 39847942, 58225993, 82366, 314610⟩, 62),
    (⟨1261883, 2493607, 0, 35913, 13549430, 54804546, 24167498, 25653379, 0, 0⟩, ⟨375618, 591898, 68020, 56661, 16541434, 84952005, 40405576, 58495466, 87766, 307987⟩, 110),
    (⟨1179955, 2233555, 0, 18332, 13558831, 54921965, 24173578, 25262752, 0, 0⟩, ⟨329275, 440719, 31698, 54609, 16696544, 88660545, 40694642, 58633040, 35253, 147362⟩, 106),
    (⟨1165041, 2185072, 0, 14031, 13581969, 55107650, 24243237, 25056815, 0, 0⟩, ⟨310734, 402669, 29847, 53667, 16855921, 98314651, 40990706, 58772523, 36913, 147456⟩, 136),
    (⟨1149893, 2136599, 0, 9173, 13605723, 55302204, 24314416, 24839053, 0, 0⟩, ⟨292809, 394252, 28067, 52736, 17019657, 107876458, 41293895, 58913932, 38329, 148490⟩, 177),
    (⟨1134591, 2088434, 0, 3812, 13630059, 55505619, 24386780, 24610190, 0, 0⟩, ⟨275498, 385686, 26359, 51819, 17187843, 117279041, 41604333, 59057279, 39632, 154445⟩, 234),
    (⟨1107838, 2004346, 0, 0, 13646121, 55655927, 24427010, 24367140, 0, 0⟩, ⟨256622, 375158, 24404, 50875, 17325658, 122838374, 41857987, 59173362, 30662, 141910⟩, 262),
    (⟨1095389, 1966230, 0, 0, 13666123, 55829372, 24484908, 24186875, 0, 0⟩, ⟨243599, 368040, 23126, 50158, 17466428, 129933168, 42116426, 59290702, 31883, 173616⟩, 325),
    (⟨1071348, 1891151, 0, 0, 13677154, 55941911, 24508323, 24091415, 0, 0⟩, ⟨228608, 358733, 21549, 49406, 17573972, 133170431, 42313432, 59379537, 23163, 192430⟩, 333),
    (⟨1061950, 1862985, 0, 0, 13692379, 56077721, 24551142, 24041927, 0, 0⟩, ⟨219310, 353289, 20638, 48879, 17980574, 138179287, 42513193, 59469086, 24303, 218751⟩, 388),
    (⟨1052588, 1835509, 0, 0, 13707765, 56216601, 24593905, 24049461, 0, 0⟩, ⟨210230, 347880, 19750, 48356, 18489090, 143066364, 42715735, 59559352, 25911, 244323⟩, 456),
    (⟨1043273, 1810609, 0, 0, 13723306, 56358542, 24636545, 24139135, 0, 0⟩, ⟨201366, 342522, 18885, 47838, 18974439, 147824238, 42921085, 59650339, 27855, 269152⟩, 542)]
def thrTab : List (List (Thr × Thr × ℕ)) :=
  [thr0, thr1, thr2, thr3, thr4, thr5, thr6, thr7, thr8, thr9, thr10, thr11,
    thr12, thr13, thr14, thr15, thr16, thr17, thr18, thr19, thr20, thr21, thr22, thr23,
    thr24, thr25, thr26, thr27, thr28, thr29, thr30, thr31, thr32]

def tab : MixTab := ⟨uTab, rTab, plTab, phTab, rowTab, pureTab, depTab, thrTab⟩

end Aga8.GergEos.MixT
