import Verif.Quad.Lit

/-! The table of `gausslobattoquadrature.hh`, literal by literal (generated from the source file). -/

namespace Verif.Quad.Lobatto

/-- gausslobattoquadrature.hh:60-68 -/
def row0 : Row := ⟨[0, 1], 1, [
  node1 0 1 5 1,
  node1 10 1 5 1]⟩

/-- gausslobattoquadrature.hh:72-82 -/
def row1 : Row := ⟨[2, 3], 3, [
  node1 0 1 1666666666666666666666666666666666666666666666666666666666666666666666666666666666666666666666666666 100,
  node1 10 1 1666666666666666666666666666666666666666666666666666666666666666666666666666666666666666666666666666 100,
  node1 5 1 6666666666666666666666666666666666666666666666666666666666666666666666666666666666666666666666666666 100]⟩

/-- gausslobattoquadrature.hh:86-98 -/
def row2 : Row := ⟨[4, 5], 5, [
  node1 0 1 8333333333333333333333333333333333333333333333333333333333333333333333333333333333333333333333333333 101,
  node1 10 1 8333333333333333333333333333333333333333333333333333333333333333333333333333333333333333333333333333 101,
  node1 7236067977499789696409173668731276235440618359611525724270897245410520925637804899414414408378782274 100 4166666666666666666666666666666666666666666666666666666666666666666666666666666666666666666666666666 100,
  node1 2763932022500210303590826331268723764559381640388474275729102754589479074362195100585585591621217725 100 4166666666666666666666666666666666666666666666666666666666666666666666666666666666666666666666666666 100]⟩

/-- gausslobattoquadrature.hh:102-116 -/
def row3 : Row := ⟨[6, 7], 7, [
  node1 0 1 5 2,
  node1 10 1 5 2,
  node1 8273268353539885718991462281234291777846040411977122787576601517076334589676979204717401113923889309 100 2722222222222222222222222222222222222222222222222222222222222222222222222222222222222222222222222222 100,
  node1 172673164646011428100853771876570822215395958802287721242339848292366541032302079528259888607611069 99 2722222222222222222222222222222222222222222222222222222222222222222222222222222222222222222222222222 100,
  node1 5 1 3555555555555555555555555555555555555555555555555555555555555555555555555555555555555555555555555555 100]⟩

/-- gausslobattoquadrature.hh:120-136 -/
def row4 : Row := ⟨[8, 9], 9, [
  node1 10 1 3333333333333333333333333333333333333333333333333333333333333333333333333333333333333333333333333333 101,
  node1 0 1 3333333333333333333333333333333333333333333333333333333333333333333333333333333333333333333333333333 101,
  node1 8825276619647323464255014869796690751828678442680521196637911779185276585194132570617486353648669365 100 1892374781489234901583064041060123262381623469486258303271944256799821862794952728706601185587576064 100,
  node1 1174723380352676535744985130203309248171321557319478803362088220814723414805867429382513646351330634 100 1892374781489234901583064041060123262381623469486258303271944256799821862794952728706601185587576064 100,
  node1 6426157582403225481570754970204395359595017363632126959098752082638489654570997990908378640025315086 100 2774291885177431765083602625606543404285043197180408363394722409866844803871713937960065481079090601 100,
  node1 3573842417596774518429245029795604640404982636367873040901247917361510345429002009091621359974684913 100 2774291885177431765083602625606543404285043197180408363394722409866844803871713937960065481079090601 100]⟩

/-- gausslobattoquadrature.hh:140-158 -/
def row5 : Row := ⟨[10, 11], 11, [
  node1 10 1 238095238095238095238095238095238095238095238095238095238095238095238095238095238095238095238095238 100,
  node1 2904443936136988704613522974964763885677664394036593149115822206008312261073264473647011675707760947 220 238095238095238095238095238095238095238095238095238095238095238095238095238095238095238095238095238 100,
  node1 8488805186071653506398389301626743020641481756400195420459339398355773991365476236892514937696012313 101 1384130236807829740053502031450331467488136400899412345912671194817223119377730668076642690885561219 100,
  node1 9151119481392834649360161069837325697935851824359980457954066060164422600863452376310748506230398768 100 1384130236807829740053502031450331467488136400899412345912671194817223119377730668076642690885561219 100,
  node1 7344243967353571069018859409543831647027987358359223785513347296814777650585638543983611678787947876 100 2158726906049313117089355111406811389654720741957730511230185948039919737765126474780500166257295923 100,
  node1 2655756032646428930981140590456168352972012641640776214486652703185222349414361456016388321212052123 100 2158726906049313117089355111406811389654720741957730511230185948039919737765126474780500166257295923 100,
  node1 5 1 2438095238095238095238095238095238095238095238095238095238095238095238095238095238095238095238095238 100]⟩

/-- gausslobattoquadrature.hh:162-182 -/
def row6 : Row := ⟨[12, 13], 13, [
  node1 1549036765939727309127212253314540739028087676819516346195105176537766539239074385945072893710805838 219 1785714285714285714285714285714285714285714285714285714285714285714285714285714285714285714285714285 101,
  node1 10 1 1785714285714285714285714285714285714285714285714285714285714285714285714285714285714285714285714285 101,
  node1 6412992574519669233127711938966828094810966516150832254029235721305050295351572963692523667104884704 101 1053521135717530196914960328878781622276730830805238840416702908213176249782427570033442170483194548 100,
  node1 9358700742548033076687228806103317190518903348384916774597076427869494970464842703630747633289511529 100 1053521135717530196914960328878781622276730830805238840416702908213176249782427570033442170483194548 100,
  node1 2041499092834288489277446343010234050271495052413337516288702042649259099754335560686927101889881905 100 1705613462417521823821203385538740858875554878027908047375010369442754416180982144816276727935324054 100,
  node1 7958500907165711510722553656989765949728504947586662483711297957350740900245664439313072898110118094 100 1705613462417521823821203385538740858875554878027908047375010369442754416180982144816276727935324054 100,
  node1 395350391048760565615671369827324372352227297456659450554576653838934538176858502305738892317405195 99 2062293973293519407835264857011048947419142862595424540779715293772640762608018856578852530152909968 100,
  node1 6046496089512394343843286301726756276477727025433405494454233461610654618231414976942611076825948049 100 2062293973293519407835264857011048947419142862595424540779715293772640762608018856578852530152909968 100]⟩

/-- gausslobattoquadrature.hh:186-208 -/
def row7 : Row := ⟨[14, 15], 15, [
  node1 10 1 1388888888888888888888888888888888888888888888888888888888888888888888888888888888888888888888888888 101,
  node1 0 1 1388888888888888888888888888888888888888888888888888888888888888888888888888888888888888888888888888 101,
  node1 9498789977057300786561726222091689790257401477830522112146563342424066372831593591455065601562473983 100 8274768078040276252316986001460415291955361461257967072311179727342770476090831589283759518613984932 101,
  node1 501210022942699213438273777908310209742598522169477887853436657575933627168406408544934398437526016 100 8274768078040276252316986001460415291955361461257967072311179727342770476090831589283759518613984932 101,
  node1 8385931397553688767229427135456712253555148238069532897704816877485492639923251368904119391580218527 100 1372693562500808676403528092896863629706256104932546432683968144564555261002751690643475473152907202 100,
  node1 1614068602446311232770572864543287746444851761930467102295183122514507360076748631095880608419781472 100 1372693562500808676403528092896863629706256104932546432683968144564555261002751690643475473152907202 100,
  node1 3184412680869109206446239656456703934896788611995609248398631346141947861831005209724334640762918559 100 1732142554865231725575657660698591439737663531254582030152941093585521432884763789883930887910864372 100,
  node1 681558731913089079355376034354329606510321138800439075160136865385805213816899479027566535923708144 99 1732142554865231725575657660698591439737663531254582030152941093585521432884763789883930887910864372 100,
  node1 5 1 1857596371882086167800453514739229024943310657596371882086167800453514739229024943310657596371882086 100]⟩

/-- gausslobattoquadrature.hh:212-236 -/
def row8 : Row := ⟨[16, 17], 17, [
  node1 0 1 1111111111111111111111111111111111111111111111111111111111111111111111111111111111111111111111111111 101,
  node1 9999999999999999999999999999999999999999999999999999999999999999999999999999999999999999999999999999 100 1111111111111111111111111111111111111111111111111111111111111111111111111111111111111111111111111111 101,
  node1 9597669540832294069144663304111690670767715377231379357448130722921337207389566406624398831120400544 100 6665299542553505556311358537769644905481293749889870744394545177223272630319979100654865458543383692 101,
  node1 4023304591677059308553366958883093292322846227686206425518692770786627926104335933756011688795994553 101 6665299542553505556311358537769644905481293749889870744394545177223272630319979100654865458543383692 101,
  node1 1306130674472474624984469125700846374919074493115366572674455034724233421300450991628551068727132423 100 1124446710315632260597289108655239213769564569808753205698293668550268429721130302051805489888586408 100,
  node1 8693869325527525375015530874299153625080925506884633427325544965275766578699549008371448931272867576 100 1124446710315632260597289108655239213769564569808753205698293668550268429721130302051805489888586408 100,
  node1 7389624749052222478305875463656289989433864466652832344571284198458112755442385696883357954490915833 100 1460213418398418789377911286872219461037441948438537722956863552702313819943238307386809881581312696 100,
  node1 2610375250947777521694124536343710010566135533347167655428715801541887244557614303116642045509084166 100 1460213418398418789377911286872219461037441948438537722956863552702313819943238307386809881581312696 100,
  node1 5826394788331935123131098829790867666155751717747418655664497860523941482272025775233841371104750817 100 1637698805919487283282552639584465723533752995652610885794277149913979376192522369384786971564651414 100,
  node1 4173605211668064876868901170209132333844248282252581344335502139476058517727974224766158628895249182 100 1637698805919487283282552639584465723533752995652610885794277149913979376192522369384786971564651414 100]⟩

/-- gausslobattoquadrature.hh:240-266 -/
def row9 : Row := ⟨[18, 19], 19, [
  node1 10 1 909090909090909090909090909090909090909090909090909090909090909090909090909090909090909090909090909 101,
  node1 0 1 909090909090909090909090909090909090909090909090909090909090909090909090909090909090909090909090909 101,
  node1 9670007152040295671661370680496918172699586650549811129458133766356780087548081709916232169156970607 100 5480613663349743223070172479017535502473707182363836539885294065931654717715138590082101464198927283 101,
  node1 3299928479597043283386293195030818273004133494501888705418662336432199124519182900837678308430293929 101 5480613663349743223070172479017535502473707182363836539885294065931654717715138590082101464198927283 101,
  node1 892241736831572209311208908054229051753598727547031810841317670384292356072438301406275095976056209 99 9358494089015260205407076094971745978459711881256415930366621871642170384257546685129643660489965628 101,
  node1 1077582631684277906887910919457709482464012724529681891586823296157076439275616985937249040239437909 100 9358494089015260205407076094971745978459711881256415930366621871642170384257546685129643660489965628 101,
  node1 7826176634981025032354819847388758321415260727810084878455786240399387940744215451190810370232123008 100 1240240521320141570200424332109363766718365848238569396279913609888950520696501358814450312642000429 100,
  node1 2173823365018974967645180152611241678584739272189915121544213759600612059255784548809189629767876991 100 1240240521320141570200424332109363766718365848238569396279913609888950520696501358814450312642000429 100,
  node1 3521209322065303042840442422204712455294967828256979452660503130991900191117723604867820025394588373 100 1434395623895040443396112016657676155918267737279659141710584573948206468407634176973200388476228628 100,
  node1 6478790677934696957159557577795287544705032171743020547339496869008099808882276395132179974605411626 100 1434395623895040443396112016657676155918267737279659141710584573948206468407634176973200388476228628 100,
  node1 5 1 150108797727845346892965940584988204035823083442131061178680226299273918321537369156416775464394512 99]⟩

/-- gausslobattoquadrature.hh:270-298 -/
def row10 : Row := ⟨[20, 21], 21, [
  node1 9999999999999999999999999999999999999999999999999999999999999999999999999999999999999999999999999999 100 7575757575757575757575757575757575757575757575757575757575757575757575757575757575757575757575757575 102,
  node1 1781392280830686405496294091311721849882300828342443798124370953018431520124935543836833827767426714 218 7575757575757575757575757575757575757575757575757575757575757575757575757575757575757575757575757575 102,
  node1 9724496361114411117037900691516093568056282759750136618569459485382739614097129863036522718431158904 100 4584225870659806533417129706703964315515307070889136931061275310990361357783848684308507448673158955 101,
  node1 2755036388855888829620993084839064319437172402498633814305405146172603859028701369634772815688410958 101 4584225870659806533417129706703964315515307070889136931061275310990361357783848684308507448673158955 101,
  node1 9096396608220033391743207908584513303452333289518221447116583630584383637955809711802462446795835436 100 7898735278218505758233553135017013412555315821172857986311633305270821238841224811543749121853323673 101,
  node1 9036033917799666082567920914154866965476667104817785528834163694156163620441902881975375532041645631 101 7898735278218505758233553135017013412555315821172857986311633305270821238841224811543749121853323673 101,
  node1 1835619234840696611687975727781720708780781272992495035174232176764738789977703147774259772755113555 100 1062542088805105726791510386834331350976728113826704167480374016271802552798567101722855158636420027 100,
  node1 8164380765159303388312024272218279291219218727007504964825767823235261210022296852225740227244886444 100 1062542088805105726791510386834331350976728113826704167480374016271802552798567101722855158636420027 100,
  node1 3002345295173255338678251042165165497361259836023464817560311639749518780463076119023391127095642402 100 1256378015996006401466222060737980916667192386749018227851616430721088752475131313979115974684259527 100,
  node1 6997654704826744661321748957834834502638740163976535182439688360250481219536923880976608872904357597 100 1256378015996006401466222060737980916667192386749018227851616430721088752475131313979115974684259527 100,
  node1 5682764664274637774320309278698469484492070556410291927257907830335263719510014649425107069687302462 100 1357026204553480885001441692498014201973259634460502355354961115623414677488036658955227452050914607 100,
  node1 4317235335725362225679690721301530515507929443589708072742092169664736280489985350574892930312697537 100 1357026204553480885001441692498014201973259634460502355354961115623414677488036658955227452050914607 100]⟩

/-- gausslobattoquadrature.hh:302-332 -/
def row11 : Row := ⟨[22, 23], 23, [
  node1 0 1 641025641025641025641025641025641025641025641025641025641025641025641025641025641025641025641025641 101,
  node1 9999999999999999999999999999999999999999999999999999999999999999999999999999999999999999999999999999 100 641025641025641025641025641025641025641025641025641025641025641025641025641025641025641025641025641 101,
  node1 2334507667891804405154726762227542418674605565131840740531369857455020885063439127346774598036632099 101 389008433734094638967944941665667925339174087467514605233128729415757024537583966937200977779876481 100,
  node1 976654923321081955948452732377724575813253944348681592594686301425449791149365608726532254019633679 99 389008433734094638967944941665667925339174087467514605233128729415757024537583966937200977779876481 100,
  node1 9231737823259361584329628035493766797890183298572043128443235063330532850312931300329387414715691132 100 6749096334480417455995738129468544462808634604633970926140225037869972013091141957836110227640939973 101,
  node1 7682621767406384156703719645062332021098167014279568715567649366694671496870686996706125852843088673 101 6749096334480417455995738129468544462808634604633970926140225037869972013091141957836110227640939973 101,
  node1 8430942345408787130363795197831777764645880990621922135313456729477343290000594746197466466146762111 100 9182343260177504600374712937340536162323684348411899957251376072910922878179385695546726564985561977 101,
  node1 1569057654591212869636204802168222235354119009378077864686543270522656709999405253802533533853237888 100 9182343260177504600374712937340536162323684348411899957251376072910922878179385695546726564985561977 101,
  node1 7414549105456681008734686168184668103860966310592950052388620460244065895536486935472233899127883465 100 1103838967830550430427670041896981487336314366669976023658147040938593495671724384857987952065895178 100,
  node1 2585450894543318991265313831815331896139033689407049947611379539755934104463513064527766100872116534 100 1103838967830550430427670041896981487336314366669976023658147040938593495671724384857987952065895178 100,
  node1 6246434650531199962843368501871134907444056562464879296492579543168629813997495722095567115050590931 100 1220078951533381782292890741800781062656311002082780301134075989572937489547631273352424370295051055 100,
  node1 3753565349468800037156631498128865092555943437535120703507420456831370186002504277904432884949409068 100 1220078951533381782292890741800781062656311002082780301134075989572937489547631273352424370295051055 100,
  node1 5 1 1259654246667233680220693207706194719181732168745155758142771129784116797103810090823077836064849051 100]⟩

/-- gausslobattoquadrature.hh:336-368 -/
def row12 : Row := ⟨[24, 25], 25, [
  node1 5808887872273977409227045949929527771355328788073186298231644412016624522146528947294023351415521895 220 5494505494505494505494505494505494505494505494505494505494505494505494505494505494505494505494505494 102,
  node1 10 1 5494505494505494505494505494505494505494505494505494505494505494505494505494505494505494505494505494 102,
  node1 9799675226336304506775500810077121945331957592863239681820791169260133487974757775199042286321829837 100 3341864224884064231703533037302641252882102672534121692222483303009226559175047551719708298586707101 101,
  node1 2003247736636954932244991899228780546680424071367603181792088307398665120252422248009577136781701629 101 3341864224884064231703533037302641252882102672534121692222483303009226559175047551719708298586707101 101,
  node1 9339005269151736255001101014541321066249361765472180673794130920541252668245245267203554324860697834 100 5829332794935582577049833532732511500235292745003663959760895323543240778750567194044396987500606793 101,
  node1 6609947308482637449988989854586789337506382345278193262058690794587473317547547327964456751393021655 101 5829332794935582577049833532732511500235292745003663959760895323543240778750567194044396987500606793 101,
  node1 1355657004543369297076637997395592021713302341528390986938780173861806180949423040135067458535801027 100 8001092588147607120641049899379732025190127481644053508436702226934193033044997746120149036223738033 101,
  node1 8644342995456630702923362002604407978286697658471609013061219826138193819050576959864932541464198972 100 8001092588147607120641049899379732025190127481644053508436702226934193033044997746120149036223738033 101,
  node1 7753197014643235276583113529295403172310691597769570669118964569840194786616101591806838309484212402 100 9741307468670805932016588918794225607431437802593237813822327477031059996400034347363088705644911479 101,
  node1 2246802985356764723416886470704596827689308402230429330881035430159805213383898408193161690515787597 100 9741307468670805932016588918794225607431437802593237813822327477031059996400034347363088705644911479 101,
  node1 3286379933286435774780482981791626775834432329298466267225425835645065531681161297198297276026186597 100 1095631265048853774355812619770838064791660572294379130680725719561649077524406590646769454901926409 100,
  node1 6713620066713564225219517018208373224165567670701533732774574164354934468318838702801702723973813402 100 1095631265048853774355812619770838064791660572294379130680725719561649077524406590646769454901926409 100,
  node1 5581659344418519338293883548680800839707545221281403841016624302939858113313899297688593325388222553 100 1158063972342285294448141786463195951579498302583058226840088392441523940683583670483441297247532194 100,
  node1 4418340655581480661706116451319199160292454778718596158983375697060141886686100702311406674611777446 100 1158063972342285294448141786463195951579498302583058226840088392441523940683583670483441297247532194 100]⟩

/-- gausslobattoquadrature.hh:372-406 -/
def row13 : Row := ⟨[26, 27], 27, [
  node1 1776551540937124757655271553020113910072838054352382809542511249341750999689813436380755474974580446 217 4761904761904761904761904761904761904761904761904761904761904761904761904761904761904761904761904761 102,
  node1 9999999999999999999999999999999999999999999999999999999999999999999999999999999999999999999999999999 100 4761904761904761904761904761904761904761904761904761904761904761904761904761904761904761904761904761 102,
  node1 9826229632519192863979256960348005888538250679985466700362492292135561186010360176002647647677775953 100 2901494651430062454844029201264099771784336341300745188628787274113154341266805777513760661557424098 101,
  node1 1737703674808071360207430396519941114617493200145332996375077078644388139896398239973523523222240469 101 2901494651430062454844029201264099771784336341300745188628787274113154341266805777513760661557424098 101,
  node1 5745897788851185058729918425888517400564295739626101359130918465945600252159841114408283401864691438 101 5083003516285903380183308539440035774049179685830295249610959702031866582180688751549009744250530787 101,
  node1 9425410221114881494127008157411148259943570426037389864086908153405439974784015888559171659813530856 100 5083003516285903380183308539440035774049179685830295249610959702031866582180688751549009744250530787 101,
  node1 118240155024092399647940762011854190911315739842354831622647197476461454480323624696818048989422683 99 7025584990121405473022340282183644531174217730120397909471137253624043283501972733710362696598904353 101,
  node1 8817598449759076003520592379881458090886842601576451683773528025235385455196763753031819510105773169 100 7025584990121405473022340282183644531174217730120397909471137253624043283501972733710362696598904353 101,
  node1 8031266027349228555617649693183667535898655168799598928429147519895983898552691820429755996920806906 100 8639482362680047452603854970417529367831783151340264536420857384867707112931518213672195839280670621 101,
  node1 1968733972650771444382350306816332464101344831200401071570852480104016101447308179570244003079193093 100 8639482362680047452603854970417529367831783151340264536420857384867707112931518213672195839280670621 101,
  node1 7103190273568362404609484693692902064921691027462151841925466804687845341292931576115237553308309106 100 9849361798230667804625017325370329743180197541674521423484253266047333445216804975440106121504710919 101,
  node1 2896809726431637595390515306307097935078308972537848158074533195312154658707068423884762446691690893 100 9849361798230667804625017325370329743180197541674521423484253266047333445216804975440106121504710919 101,
  node1 3923230223181028808871602768635411436739210493984794682627474261791448221666457778202343230232392067 100 1059867929634104600637150384886104583118278726971801315913895439174768514920960637299390729866760359 100,
  node1 6076769776818971191128397231364588563260789506015205317372525738208551778333542221797656769767607932 100 1059867929634104600637150384886104583118278726971801315913895439174768514920960637299390729866760359 100,
  node1 5 1 1085240581744078247574751071254567758064261560765057268553772050275546779043282539786036289532793029 100]⟩

/-- gausslobattoquadrature.hh:410-446 -/
def row14 : Row := ⟨[28, 29], 29, [
  node1 10 1 4166666666666666666666666666666666666666666666666666666666666666666666666666666666666666666666666666 102,
  node1 1717494514235672653994796585862497044397392211673638748843822864486248650381323725416599570901855973 217 4166666666666666666666666666666666666666666666666666666666666666666666666666666666666666666666666666 102,
  node1 9847840231351089664761213691837296206944953732519173650343393661412705259269883781602191879541709236 100 2542518050295995270162245978272765724693591376889349195640334722202949369151888747237233700872763844 101,
  node1 152159768648910335238786308162703793055046267480826349656606338587294740730116218397808120458290763 100 2542518050295995270162245978272765724693591376889349195640334722202949369151888747237233700872763844 101,
  node1 5039973345326395350268586924007526162500119547742778728778629410576180140857154234663004161524265869 101 4469684866296540049552604008304185746694360501889948923847233213965134199681727331844744019578417196 101,
  node1 9496002665467360464973141307599247383749988045225722127122137058942381985914284576533699583847573413 100 4469684866296540049552604008304185746694360501889948923847233213965134199681727331844744019578417196 101,
  node1 8960041459309075319655441354815728529040369139900995113422053249329981450139975002211832902895663786 100 6212769106625704917476816632865660038719901563494977010533863640312703155896799226312485062586658436 101,
  node1 1039958540690924680344558645184271470959630860099004886577946750670018549860024997788167097104336213 100 6212769106625704917476816632865660038719901563494977010533863640312703155896799226312485062586658436 101,
  node1 1738056485587534552660583901797092598392209935852128313071093578888814784597858327102665672608913001 100 7701349040358214040782247024249725772270812099182066142850652272505318441638252145157789038843411783 101,
  node1 8261943514412465447339416098202907401607790064147871686928906421111185215402141672897334327391086998 100 7701349040358214040782247024249725772270812099182066142850652272505318441638252145157789038843411783 101,
  node1 7430297109435688058909453929234373484444886521491262856883284338033922487167612097283758109612034 97 8874595669585206265053783476417888507915737258808560675748197508328136667564757334406922314835077358 101,
  node1 2569702890564311941090546070765626515555113478508737143116715661966077512832387902716241890387965999 100 8874595669585206265053783476417888507915737258808560675748197508328136667564757334406922314835077358 101,
  node1 6499152344503816040491767273611503239077304884538888323271550488220204384855463949826705488978888995 100 968450119126017921584567994267610151531789970092036625918329566734849788429878017911249745539485532 100,
  node1 3500847655496183959508232726388496760922695115461111676728449511779795615144536050173294511021111004 100 968450119126017921584567994267610151531789970092036625918329566734849788429878017911249745539485532 100,
  node1 4493368632390252760784834974770411187333795427999044300412248998728460413102109205056194162045666875 100 1009791540891149357445995627054700602772103083214806512552975630867059361510112836926166174122214939 100,
  node1 5506631367609747239215165025229588812666204572000955699587751001271539586897890794943805837954333124 100 1009791540891149357445995627054700602772103083214806512552975630867059361510112836926166174122214939 100]⟩

/-- gausslobattoquadrature.hh:450-488 -/
def row15 : Row := ⟨[30, 31], 31, [
  node1 0 1 3676470588235294117647058823529411764705882352941176470588235294117647058823529411764705882352941176 102,
  node1 10 1 3676470588235294117647058823529411764705882352941176470588235294117647058823529411764705882352941176 102,
  node1 9865660883157091570784897509368607152944795745612547432232459215480390687332058160630984405164903217 100 2246097027162710482370047731160622165909985422213544924833396204747853346803054054679261056524380165 101,
  node1 1343391168429084292151024906313928470552042543874525677675407845196093126679418393690155948350967826 101 2246097027162710482370047731160622165909985422213544924833396204747853346803054054679261056524380165 101,
  node1 9554399979577867978119012531988632337654397259343663821609062796554833300363345816190854768507479496 100 3959913525184355959513221497641725204918210926342338676126317758881904561019931791094586405300662264 101,
  node1 4456000204221320218809874680113676623456027406563361783909372034451666996366541838091452314925205037 101 3959913525184355959513221497641725204918210926342338676126317758881904561019931791094586405300662264 101,
  node1 9078481256108851535533752766187633273582011985335617790749319807934202397930005886582665845290317207 100 5529645450351408068788635261003840181971611225363821508003451652482392857878578150910441495304482895 101,
  node1 9215187438911484644662472338123667264179880146643822092506801920657976020699941134173341547096827924 101 5529645450351408068788635261003840181971611225363821508003451652482392857878578150910441495304482895 101,
  node1 1544855096861576473025403213137733515967934689047922857963009513809809776082858467655372231955925407 100 6899387310096327952810078747701258533295163289000440269653946874332343735749826826562576005869369419 101,
  node1 8455144903138423526974596786862266484032065310952077142036990486190190223917141532344627768044074592 100 6899387310096327952810078747701258533295163289000440269653946874332343735749826826562576005869369419 101,
  node1 7706926996650507695618667037520316258375733239824155726604727057271799870936741109100660654933706336 100 8019733099881076975816418293237564513290902065869140324995695076068173451229411554538913632561719631 101,
  node1 2293073003349492304381332962479683741624266760175844273395272942728200129063258890899339345066293663 100 8019733099881076975816418293237564513290902065869140324995695076068173451229411554538913632561719631 101,
  node1 6860872167827385209536173403676289062799086572001402867325516717899853619419213067667865572344459824 100 885021267578289352184728726816462459105382395892224688500305543093532815923565641483716296132573368 100,
  node1 3139127832172614790463826596323710937200913427998597132674483282100146380580786932332134427655540175 100 885021267578289352184728726816462459105382395892224688500305543093532815923565641483716296132573368 100,
  node1 4052440132408413058478684926234430143275037885387507147110643644161601040392422935122524506671460895 100 9360816983880961794604424143031086813356487629712529604402863683694700387971868875767801014577462951 101,
  node1 5947559867591586941521315073765569856724962114612492852889356355838398959607577064877475493328539104 100 9360816983880961794604424143031086813356487629712529604402863683694700387971868875767801014577462951 101,
  node1 5 1 9533093737673471664970362351412673639466454494563640319844899578891077588458638780865573680601789747 101]⟩

/-- gausslobattoquadrature.hh:57-489, the whole `switch` -/
def table : List Row := [row0, row1, row2, row3, row4, row5, row6, row7, row8, row9, row10, row11, row12, row13, row14, row15]

end Verif.Quad.Lobatto
