import Verif.Model.ColourMap
import Mathlib.Data.Real.Basic

/-! Generated by tools/gen_colourmaps.py from /repo/src/colourmap/*.rs. Each entry is `10^12` times the decimal literal in the source. -/

namespace Rendering

/-- A table entry, in units of 10⁻¹². -/
abbrev RawRgb := Nat × Nat × Nat

/-- /repo/src/colourmap/inferno.rs:23 `INFERNO_COLOURMAP`. -/
def infernoRaw : List RawRgb := [
  (1461590960, 466127766, 13865520000), (2267263680, 1269925530, 18570352000), (3298990920, 2249348630, 24239050800), (4546906150, 3391801560, 30909247500),
  (6005525650, 4691945610, 38557898000), (7675788560, 6136116260, 46836033600), (9560510940, 7713441310, 55143075600), (11663476900, 9416754030, 63459808000),
  (13995038800, 11224713800, 71861689000), (16560559500, 13136226200, 80281795100), (19373229500, 15132578900, 88766809400), (22446886500, 17199148400, 97327438300),
  (25792737300, 19330629800, 105929835000), (29432425100, 21503077100, 114621328000), (33385223500, 23702427100, 123397286000), (37668421100, 25920786400, 132232108000),
  (42252555400, 28138501500, 141140519000), (46914628700, 30323612900, 150163867000), (51643762400, 32473617200, 159254277000), (56449100900, 34569186700, 168413539000),
  (61339720000, 36590021300, 177642172000), (66331262000, 38503626800, 186961588000), (71428918100, 40293909500, 196353558000), (76636756000, 41905332900, 205798788000),
  (81962077300, 43327866600, 215289113000), (87411389700, 44556166200, 224813479000), (92990152600, 45582950300, 234357604000), (98702497200, 46401873100, 243903700000),
  (104550936000, 47008054100, 253430300000), (110536084000, 47398670800, 262912235000), (116656423000, 47573592000, 272320803000), (122908126000, 47536018300, 281624170000),
  (129284984000, 47293083800, 290788012000), (135778450000, 46856367800, 299776404000), (142377819000, 46242256600, 308552910000), (149072957000, 45467644400, 317085139000),
  (155849711000, 44558805600, 325338414000), (162688939000, 43554288100, 333276678000), (169575148000, 42489314900, 340874188000), (176493202000, 41401708900, 348110606000),
  (183428775000, 40328885800, 354971391000), (190367453000, 39308888800, 361446945000), (197297425000, 38400182500, 367534629000), (204209298000, 37632260900, 373237557000),
  (211095463000, 37029648800, 378563264000), (217948648000, 36614604900, 383522415000), (224762908000, 36404990100, 388128944000), (231538148000, 36405251100, 392400150000),
  (238272961000, 36620994900, 396353388000), (244966911000, 37054501700, 400006615000), (251620354000, 37705283200, 403377897000), (258234265000, 38570615300, 406485031000),
  (264809649000, 39646866600, 409345373000), (271346664000, 40921582100, 411976086000), (277849829000, 42352874100, 414392106000), (284321318000, 43932578700, 416607861000),
  (290763373000, 45643759800, 418636756000), (297178251000, 47470029300, 420491164000), (303568182000, 49395892700, 422182449000), (309935342000, 51406972900, 423720999000),
  (316281835000, 53490132100, 425116277000), (322609671000, 55633517800, 426376869000), (328920763000, 57826550500, 427510546000), (335216916000, 60059873400, 428524320000),
  (341499828000, 62325277200, 429424503000), (347771086000, 64615610000, 430216765000), (354032169000, 66924683200, 430906186000), (360284449000, 69247175300, 431497309000),
  (366529195000, 71578540300, 431994185000), (372767575000, 73914921100, 432400419000), (379000659000, 76253070100, 432719214000), (385228383000, 78591486400, 432954973000),
  (391452659000, 80926705800, 433108763000), (397674379000, 83256812900, 433182647000), (403894278000, 85580344500, 433178526000), (410113015000, 87896159300, 433098056000),
  (416331169000, 90203399200, 432942678000), (422549249000, 92501454300, 432713635000), (428767696000, 94789934200, 432411996000), (434986885000, 97068641700, 432038673000),
  (441207124000, 99337551000, 431594438000), (447428382000, 101597079000, 431080497000), (453650614000, 103847716000, 430497898000), (459874623000, 106089165000, 429845789000),
  (466100494000, 108321923000, 429124507000), (472328255000, 110546584000, 428334320000), (478557889000, 112763831000, 427475431000), (484789325000, 114974430000, 426547991000),
  (491022448000, 117179219000, 425552106000), (497257069000, 119379132000, 424487908000), (503492698000, 121575414000, 423356110000), (509729541000, 123768654000, 422155676000),
  (515967304000, 125959947000, 420886594000), (522205646000, 128150439000, 419548848000), (528444192000, 130341324000, 418142411000), (534682523000, 132533845000, 416667258000),
  (540920186000, 134729286000, 415123366000), (547156706000, 136928959000, 413510662000), (553391649000, 139134147000, 411828882000), (559624442000, 141346265000, 410078028000),
  (565854477000, 143566769000, 408258132000), (572081108000, 145797150000, 406369246000), (578303656000, 148038934000, 404411444000), (584521407000, 150293679000, 402384829000),
  (590733615000, 152562977000, 400289528000), (596939751000, 154848232000, 398124897000), (603138930000, 157151161000, 395891308000), (609330184000, 159473549000, 393589349000),
  (615512627000, 161817111000, 391219295000), (621685340000, 164183582000, 388781456000), (627847374000, 166574724000, 386276180000), (633997746000, 168992314000, 383703854000),
  (640135447000, 171438150000, 381064906000), (646259648000, 173913876000, 378358969000), (652369348000, 176421271000, 375586209000), (658463166000, 178962399000, 372748214000),
  (664539964000, 181539111000, 369845599000), (670598572000, 184153268000, 366879025000), (676637795000, 186806728000, 363849195000), (682656407000, 189501352000, 360756856000),
  (688653158000, 192238994000, 357602797000), (694626769000, 195021500000, 354387853000), (700575937000, 197850703000, 351112900000), (706499709000, 200728196000, 347776863000),
  (712396345000, 203656029000, 344382594000), (718264447000, 206635993000, 340931208000), (724102613000, 209669834000, 337423766000), (729909422000, 212759270000, 333861367000),
  (735683432000, 215905976000, 330245147000), (741423185000, 219111589000, 326576275000), (747127207000, 222377697000, 322855952000), (752794009000, 225705837000, 319085410000),
  (758422090000, 229097492000, 315265910000), (764009940000, 232554083000, 311398734000), (769556038000, 236076967000, 307485188000), (775058888000, 239667435000, 303526312000),
  (780517023000, 243326720000, 299522665000), (785928794000, 247055968000, 295476756000), (791292674000, 250856232000, 291389943000), (796607144000, 254728485000, 287263585000),
  (801870689000, 258673610000, 283099033000), (807081807000, 262692401000, 278897629000), (812239008000, 266785558000, 274660698000), (817340818000, 270953688000, 270389545000),
  (822385784000, 275197300000, 266085445000), (827372474000, 279516805000, 261749643000), (832299481000, 283912516000, 257383341000), (837165425000, 288384647000, 252987700000),
  (841968959000, 292933312000, 248563825000), (846708768000, 297558528000, 244112767000), (851383572000, 302260213000, 239635512000), (855992130000, 307038188000, 235132978000),
  (860533241000, 311892183000, 230606009000), (865005747000, 316821833000, 226055368000), (869408534000, 321826685000, 221481734000), (873740530000, 326906201000, 216885699000),
  (878000715000, 332059760000, 212267762000), (882188112000, 337286663000, 207628326000), (886301795000, 342586137000, 202967696000), (890340885000, 347957340000, 198286080000),
  (894304553000, 353399363000, 193583583000), (898192017000, 358911240000, 188860212000), (902002544000, 364491949000, 184115876000), (905735448000, 370140419000, 179350388000),
  (909390090000, 375855533000, 174563472000), (912965874000, 381636138000, 169754764000), (916462251000, 387481044000, 164923826000), (919878710000, 393389034000, 160070152000),
  (923214783000, 399358867000, 155193185000), (926470039000, 405389282000, 150292329000), (929644083000, 411479007000, 145366973000), (932736555000, 417626756000, 140416519000),
  (935747126000, 423831237000, 135440416000), (938675494000, 430091162000, 130438175000), (941521384000, 436405243000, 125409440000), (944284543000, 442772199000, 120354038000),
  (946964741000, 449190757000, 115272059000), (949561766000, 455659658000, 110163947000), (952075421000, 462177656000, 105030614000), (954505523000, 468743522000, 99873593100),
  (956851903000, 475356048000, 94695226800), (959114397000, 482014044000, 89498907300), (961292850000, 488716345000, 84289389100), (963387110000, 495461806000, 79073190700),
  (965397031000, 502249309000, 73859114300), (967322465000, 509077761000, 68658919900), (969163264000, 515946092000, 63488197100), (970919277000, 522853259000, 58367489000),
  (972590351000, 529798246000, 53323724300), (974176327000, 536780059000, 48392009000), (975677038000, 543797733000, 43617792200), (977092313000, 550850323000, 39050013100),
  (978421971000, 557936911000, 34930622700), (979665824000, 565056600000, 31409159100), (980823673000, 572208516000, 28507593100), (981895311000, 579391803000, 26249735300),
  (982880522000, 586605627000, 24661341600), (983779081000, 593849168000, 23770226300), (984590755000, 601121626000, 23606383300), (985315301000, 608422211000, 24202117400),
  (985952471000, 615750147000, 25592185300), (986502013000, 623104667000, 27813949600), (986963670000, 630485011000, 30907545900), (987337182000, 637890424000, 34916063900),
  (987622296000, 645320152000, 39885747200), (987818759000, 652773439000, 45580803700), (987926330000, 660249526000, 51750386700), (987944783000, 667747641000, 58328688900),
  (987873910000, 675267000000, 65257016700), (987713535000, 682806802000, 72489233000), (987463516000, 690366218000, 79989717600), (987123759000, 697944391000, 87731421500),
  (986694229000, 705540424000, 95694179700), (986174970000, 713153375000, 103863324000), (985565739000, 720782460000, 112228756000), (984865203000, 728427497000, 120784651000),
  (984075129000, 736086521000, 129526579000), (983195992000, 743758326000, 138453063000), (982228463000, 751441596000, 147564573000), (981173457000, 759134892000, 156863224000),
  (980032178000, 766836624000, 166352544000), (978806183000, 774545028000, 176037298000), (977497453000, 782258138000, 185923357000), (976108474000, 789973753000, 196017589000),
  (974637842000, 797691563000, 206331925000), (973087939000, 805409333000, 216876839000), (971467822000, 813121725000, 227658046000), (969783146000, 820825143000, 238685942000),
  (968040817000, 828515491000, 249971582000), (966242589000, 836190976000, 261533898000), (964393924000, 843848069000, 273391112000), (962516656000, 851476340000, 285545675000),
  (960625545000, 859068716000, 298010219000), (958720088000, 866624355000, 310820466000), (956834075000, 874128569000, 323973947000), (954997177000, 881568926000, 337475479000),
  (953215092000, 888942277000, 351368713000), (951546225000, 896225909000, 365627005000), (950018481000, 903409063000, 380271225000), (948683391000, 910472964000, 395289169000),
  (947594362000, 917399053000, 410665194000), (946809163000, 924168246000, 426373236000), (946391536000, 930760752000, 442367495000), (946402951000, 937158971000, 458591507000),
  (946902568000, 943347775000, 474969778000), (947936825000, 949317522000, 491426053000), (949544830000, 955062900000, 507859649000), (951740304000, 960586693000, 524203026000),
  (954529281000, 965895868000, 540360752000), (957896053000, 971003330000, 556275090000), (961812020000, 975924241000, 571925382000), (966248822000, 980678193000, 587205773000),
  (971161622000, 985282161000, 602154330000), (976510983000, 989753437000, 616760413000), (982257307000, 994108844000, 631017009000), (988362068000, 998364143000, 644924005000)]

/-- /repo/src/colourmap/magma.rs:23 `MAGMA_COLOURMAP`. -/
def magmaRaw : List RawRgb := [
  (1461590960, 466127766, 13865520000), (2257640070, 1294954310, 18331146100), (3279432220, 2304529910, 23708329100), (4512302220, 3490376660, 29964705900),
  (5949769870, 4842850000, 37129669500), (7587985500, 6356136220, 44973077400), (9426043900, 8021850060, 52844356100), (11465433700, 9828314860, 60749638000),
  (13707570600, 11770591300, 68666584300), (16155756600, 13840496600, 76602666000), (18815367000, 16026275300, 84584489700), (21691934000, 18320125400, 92610105000),
  (24791781400, 20714787500, 100675555000), (28122815400, 23200928400, 108786954000), (31695530400, 25765116100, 116964722000), (35520446800, 28397457000, 125209396000),
  (39608487200, 31089565200, 133515085000), (43829535000, 33829988500, 141886249000), (48061639100, 36606610100, 150326989000), (52320438800, 39406602000, 158841025000),
  (56614897800, 42159892500, 167445592000), (60949393000, 44794492400, 176128834000), (65330180100, 47317779600, 184891506000), (69763729600, 49726466600, 193735088000),
  (74256515200, 52016776600, 202660374000), (78815003400, 54184480100, 211667355000), (83445631300, 56224936500, 220755099000), (88154773000, 58133146500, 229921611000),
  (92948691400, 59903816700, 239163669000), (97833477000, 61531441400, 248476662000), (102814972000, 63010405300, 257854400000), (107898679000, 64335110200, 267288933000),
  (113094451000, 65492035800, 276783978000), (118405035000, 66479159300, 286320656000), (123832651000, 67294644900, 295879431000), (129380192000, 67934926400, 305442931000),
  (135053322000, 68391279800, 314999890000), (140857952000, 68654071000, 324537640000), (146785234000, 68738232300, 334011109000), (152839217000, 68636859900, 343404450000),
  (159017511000, 68354022500, 352688028000), (165308131000, 67910868900, 361816426000), (171713033000, 67305326000, 370770827000), (178211730000, 66575807300, 379497161000),
  (184800877000, 65732438100, 387972507000), (191459745000, 64818331200, 396151969000), (198176877000, 63862416600, 404008953000), (204934882000, 62906619200, 411514273000),
  (211718061000, 61991787600, 418646741000), (218511590000, 61158491800, 425391816000), (225302032000, 60445184300, 431741767000), (232076515000, 59888685500, 437694665000),
  (238825991000, 59517038400, 443255999000), (245543175000, 59352438400, 448435938000), (252220252000, 59414711900, 453247729000), (258857304000, 59705599800, 457709924000),
  (265446744000, 60236875400, 461840297000), (271994089000, 60993555200, 465660375000), (278493300000, 61977813600, 469190328000), (284951097000, 63167626100, 472450879000),
  (291365817000, 64553448600, 475462193000), (297740413000, 66117043200, 478243482000), (304080941000, 67835345200, 480811572000), (310382027000, 69702476700, 483186340000),
  (316654235000, 71689527200, 485380429000), (322899126000, 73781950400, 487408399000), (329114038000, 75971508100, 489286796000), (335307503000, 78236104500, 491024144000),
  (341481725000, 80563507900, 492631321000), (347635742000, 82946351200, 494120923000), (353773161000, 85372632900, 495501096000), (359897941000, 87831177200, 496778331000),
  (366011928000, 90314303100, 497959963000), (372116205000, 92815991700, 499053326000), (378210547000, 95332294700, 500066568000), (384299445000, 97854910600, 501001964000),
  (390384361000, 100379466000, 501864236000), (396466670000, 102902194000, 502657590000), (402547663000, 105419865000, 503385761000), (408628505000, 107929771000, 504052118000),
  (414708664000, 110431177000, 504661843000), (420791157000, 112920210000, 505214935000), (426876965000, 115395258000, 505713602000), (432967001000, 117854987000, 506159754000),
  (439062114000, 120298314000, 506555026000), (445163096000, 122724371000, 506900806000), (451270678000, 125132484000, 507198258000), (457385535000, 127522145000, 507448336000),
  (463508291000, 129892998000, 507651812000), (469639514000, 132244819000, 507809282000), (475779723000, 134577500000, 507921193000), (481928997000, 136891390000, 507988509000),
  (488088169000, 139186217000, 508010737000), (494257673000, 141462106000, 507987836000), (500437834000, 143719323000, 507919772000), (506628929000, 145958202000, 507806420000),
  (512831195000, 148179144000, 507647570000), (519044825000, 150382611000, 507442938000), (525269968000, 152569121000, 507192172000), (531506735000, 154739247000, 506894860000),
  (537755194000, 156893613000, 506550538000), (544015371000, 159032895000, 506158696000), (550287252000, 161157816000, 505718782000), (556570783000, 163269149000, 505230210000),
  (562865867000, 165367714000, 504692365000), (569172368000, 167454379000, 504104606000), (575490107000, 169530062000, 503466273000), (581818864000, 171595728000, 502776690000),
  (588158375000, 173652392000, 502035167000), (594508337000, 175701122000, 501241011000), (600868399000, 177743036000, 500393522000), (607238169000, 179779309000, 499491999000),
  (613617209000, 181811170000, 498535746000), (620005032000, 183839907000, 497524075000), (626401108000, 185866869000, 496456304000), (632804854000, 187893468000, 495331769000),
  (639215638000, 189921182000, 494149821000), (645632778000, 191951556000, 492909832000), (652055535000, 193986210000, 491611196000), (658483116000, 196026835000, 490253338000),
  (664914668000, 198075202000, 488835712000), (671349279000, 200133166000, 487357807000), (677785975000, 202202663000, 485819154000), (684223712000, 204285721000, 484219325000),
  (690661380000, 206384461000, 482557941000), (697097796000, 208501100000, 480834678000), (703531700000, 210637956000, 479049270000), (709961888000, 212797337000, 477201121000),
  (716387038000, 214981693000, 475289780000), (722805451000, 217193831000, 473315708000), (729215521000, 219436516000, 471278924000), (735615545000, 221712634000, 469179541000),
  (742003713000, 224025196000, 467017774000), (748378107000, 226377345000, 464793954000), (754736692000, 228772352000, 462508534000), (761077312000, 231213625000, 460162106000),
  (767397681000, 233704708000, 457755411000), (773695380000, 236249283000, 455289354000), (779967847000, 238851170000, 452765022000), (786212372000, 241514325000, 450183695000),
  (792426972000, 244242250000, 447543155000), (798607760000, 247039798000, 444848441000), (804751511000, 249911350000, 442101615000), (810854841000, 252861399000, 439304963000),
  (816914186000, 255894550000, 436461074000), (822925797000, 259015505000, 433572874000), (828885740000, 262229049000, 430643647000), (834790818000, 265539703000, 427671352000),
  (840635680000, 268952874000, 424665620000), (846415804000, 272473491000, 421631064000), (852126490000, 276106469000, 418572767000), (857762870000, 279856666000, 415496319000),
  (863320397000, 283729003000, 412402889000), (868793368000, 287728205000, 409303002000), (874176342000, 291858679000, 406205397000), (879463944000, 296124596000, 403118034000),
  (884650824000, 300530090000, 400047060000), (889731418000, 305078817000, 397001559000), (894700194000, 309773445000, 393994634000), (899551884000, 314616425000, 391036674000),
  (904281297000, 319609981000, 388136889000), (908883524000, 324755126000, 385308008000), (913354091000, 330051947000, 382563414000), (917688852000, 335500068000, 379915138000),
  (921884187000, 341098112000, 377375977000), (925937102000, 346843685000, 374959077000), (929845090000, 352733817000, 372676513000), (933606454000, 358764377000, 370540883000),
  (937220874000, 364929312000, 368566525000), (940687443000, 371224168000, 366761699000), (944006448000, 377642889000, 365136328000), (947179528000, 384177874000, 363701130000),
  (950210150000, 390819546000, 362467694000), (953099077000, 397562894000, 361438431000), (955849237000, 404400213000, 360619076000), (958464079000, 411323666000, 360014232000),
  (960949221000, 418323245000, 359629789000), (963310281000, 425389724000, 359469020000), (965549351000, 432518707000, 359529151000), (967671128000, 439702976000, 359810172000),
  (969680441000, 446935635000, 360311120000), (971582181000, 454210170000, 361030156000), (973381238000, 461520484000, 361964652000), (975082439000, 468860936000, 363111292000),
  (976690494000, 476226350000, 364466162000), (978209957000, 483612031000, 366024854000), (979645181000, 491013764000, 367782559000), (981000291000, 498427800000, 369734157000),
  (982279159000, 505850848000, 371874301000), (983485387000, 513280054000, 374197501000), (984622298000, 520712972000, 376698186000), (985692925000, 528147545000, 379370774000),
  (986700017000, 535582070000, 382209724000), (987646038000, 543015173000, 385209578000), (988533173000, 550445778000, 388365009000), (989363341000, 557873075000, 391670846000),
  (990138201000, 565296495000, 395122099000), (990871208000, 572706259000, 398713971000), (991558165000, 580106828000, 402441058000), (992195728000, 587501706000, 406298792000),
  (992784669000, 594891088000, 410282976000), (993325561000, 602275297000, 414389658000), (993834412000, 609643540000, 418613221000), (994308514000, 616998953000, 422949672000),
  (994737698000, 624349657000, 427396771000), (995121854000, 631696376000, 431951492000), (995480469000, 639026596000, 436607159000), (995809924000, 646343897000, 441360951000),
  (996095703000, 653658756000, 446213021000), (996341406000, 660969379000, 451160201000), (996579803000, 668255621000, 456191814000), (996774784000, 675541484000, 461314158000),
  (996925427000, 682827953000, 466525689000), (997077185000, 690087897000, 471811461000), (997186253000, 697348991000, 477181727000), (997253982000, 704610791000, 482634651000),
  (997325180000, 711847714000, 488154375000), (997350983000, 719089119000, 493754665000), (997350583000, 726324415000, 499427972000), (997341259000, 733544671000, 505166839000),
  (997284689000, 740771893000, 510983331000), (997228367000, 747980563000, 516859378000), (997138480000, 755189852000, 522805996000), (997019342000, 762397883000, 528820775000),
  (996898254000, 769590975000, 534892341000), (996726862000, 776794860000, 541038571000), (996570645000, 783976508000, 547232992000), (996369065000, 791167346000, 553498939000),
  (996162309000, 798347709000, 559819643000), (995932448000, 805527126000, 566201824000), (995680107000, 812705773000, 572644795000), (995423973000, 819875302000, 579140130000),
  (995131288000, 827051773000, 585701463000), (994851089000, 834212826000, 592307093000), (994523666000, 841386618000, 598982818000), (994221900000, 848540474000, 605695903000),
  (993865767000, 855711038000, 612481798000), (993545285000, 862858846000, 619299300000), (993169558000, 870024467000, 626189463000), (992830963000, 877168404000, 633109148000),
  (992439881000, 884329694000, 640099465000), (992089454000, 891469549000, 647116021000), (991687744000, 898627050000, 654201544000), (991331929000, 905762748000, 661308839000),
  (990929685000, 912915010000, 668481201000), (990569914000, 920048699000, 675674592000), (990174637000, 927195612000, 682925602000), (989814839000, 934328540000, 690198194000),
  (989433736000, 941470354000, 697518628000), (989077438000, 948604077000, 704862519000), (988717064000, 955741520000, 712242232000), (988367028000, 962878026000, 719648627000),
  (988032885000, 970012413000, 727076773000), (987690702000, 977154231000, 734536205000), (987386827000, 984287561000, 742001547000), (987052509000, 991437853000, 749504188000)]

/-- /repo/src/colourmap/plasma.rs:23 `PLASMA_COLOURMAP`. -/
def plasmaRaw : List RawRgb := [
  (50383213600, 29802897600, 527974883000), (63536363900, 28425972900, 533123681000), (75353123400, 27206372800, 538007001000), (86221797900, 26125320600, 542657691000),
  (96378609700, 25165097600, 547103487000), (105979704000, 24309243600, 551367851000), (115123641000, 23556250000, 555467728000), (123902903000, 22878101100, 559423480000),
  (132380720000, 22258377400, 563250116000), (140603076000, 21686667400, 566959485000), (148606527000, 21153587600, 570561711000), (156420649000, 20650717400, 574065446000),
  (164069722000, 20170532600, 577478074000), (171573925000, 19706341500, 580805890000), (178950212000, 19252224300, 584054243000), (186212958000, 18802976700, 587227661000),
  (193374449000, 18354059300, 590329954000), (200445260000, 17901551200, 593364304000), (207434551000, 17442108600, 596333341000), (214350298000, 16972927600, 599239207000),
  (221196750000, 16497048400, 602083323000), (227982971000, 16007150900, 604867403000), (234714537000, 15501506500, 607592438000), (241396253000, 14979104100, 610259089000),
  (248032377000, 14439358600, 612867743000), (254626690000, 13882091800, 615418537000), (261182562000, 13307515600, 617911385000), (267702993000, 12716216300, 620345997000),
  (274190665000, 12109142300, 622721903000), (280647969000, 11487591500, 625038468000), (287076059000, 10855486200, 627294975000), (293477695000, 10212884900, 629490490000),
  (299855122000, 9560795510, 631623923000), (306209825000, 8901853460, 633694102000), (312543124000, 8239007040, 635699759000), (318856183000, 7575510510, 637639537000),
  (325150025000, 6914917340, 639512001000), (331425547000, 6261073790, 641315649000), (337683446000, 5618308890, 643048936000), (343924591000, 4990530800, 644710195000),
  (350149699000, 4382025570, 646297711000), (356359209000, 3797817610, 647809772000), (362553473000, 3243195910, 649244641000), (368732762000, 2723707210, 650600561000),
  (374897270000, 2245148970, 651875762000), (381047116000, 1813562050, 653068467000), (387182639000, 1434469230, 654176761000), (393304010000, 1113882590, 655198755000),
  (399410821000, 859420809, 656132835000), (405502914000, 678091517, 656977276000), (411580082000, 577101735, 657730380000), (417642063000, 563847476, 658390492000),
  (423688549000, 645902780, 658956004000), (429719186000, 831008207, 659425363000), (435733575000, 1127058750, 659797077000), (441732123000, 1539847790, 660069009000),
  (447713600000, 2079547440, 660240367000), (453677394000, 2754703020, 660309966000), (459622938000, 3573744150, 660276655000), (465549631000, 4545180840, 660139383000),
  (471456847000, 5677587620, 659897210000), (477343929000, 6979587430, 659549311000), (483210198000, 8459834940, 659094989000), (489054951000, 10126999600, 658533677000),
  (494877466000, 11989748600, 657864946000), (500677687000, 14055064000, 657087561000), (506454143000, 16333344300, 656202294000), (512206035000, 18833223200, 655209222000),
  (517932580000, 21563191800, 654108545000), (523632990000, 24531646800, 652900629000), (529306474000, 27746873500, 651586010000), (534952244000, 31217030000, 650165396000),
  (540569510000, 34950131000, 648639668000), (546157494000, 38954033400, 647009884000), (551715423000, 43136479500, 645277275000), (557242538000, 47330758500, 643443250000),
  (562738096000, 51544809200, 641509389000), (568201372000, 55777670600, 639477440000), (573631859000, 60028136900, 637348841000), (579028682000, 64295554700, 635126108000),
  (584391137000, 68579026100, 632811608000), (589718606000, 72877587500, 630407727000), (595010505000, 77190287800, 627916992000), (600266283000, 81516189500, 625342058000),
  (605485428000, 85854371300, 622685703000), (610667469000, 90203930300, 619950811000), (615811974000, 94563983800, 617140367000), (620918555000, 98933672100, 614257440000),
  (625986869000, 103312160000, 611305174000), (631016615000, 107698641000, 608286774000), (636007543000, 112092335000, 605205491000), (640959444000, 116492495000, 602064611000),
  (645872158000, 120898405000, 598867442000), (650745571000, 125309384000, 595617300000), (655579615000, 129724785000, 592317494000), (660374266000, 134143997000, 588971318000),
  (665129493000, 138566428000, 585582301000), (669845385000, 142991540000, 582153572000), (674522060000, 147418835000, 578688247000), (679159664000, 151847851000, 575189431000),
  (683758384000, 156278163000, 571660158000), (688318440000, 160709387000, 568103380000), (692840088000, 165141174000, 564521958000), (697323615000, 169573215000, 560918659000),
  (701769334000, 174005236000, 557296144000), (706177590000, 178437000000, 553656970000), (710548747000, 182868306000, 550003579000), (714883195000, 187298986000, 546338299000),
  (719181339000, 191728906000, 542663338000), (723443604000, 196157962000, 538980786000), (727670428000, 200586086000, 535292612000), (731862231000, 205013174000, 531600995000),
  (736019424000, 209439071000, 527908434000), (740142557000, 213863965000, 524215533000), (744232102000, 218287899000, 520523766000), (748288533000, 222710942000, 516834495000),
  (752312321000, 227133187000, 513148963000), (756303937000, 231554749000, 509468305000), (760263849000, 235975765000, 505793543000), (764192516000, 240396394000, 502125599000),
  (768090391000, 244816813000, 498465290000), (771957916000, 249237220000, 494813338000), (775795522000, 253657797000, 491170517000), (779603614000, 258078397000, 487539124000),
  (783382636000, 262499662000, 483917732000), (787132978000, 266921859000, 480306702000), (790855015000, 271345267000, 476706319000), (794549101000, 275770179000, 473116798000),
  (798215577000, 280196901000, 469538286000), (801854758000, 284625750000, 465970871000), (805466945000, 289057057000, 462414580000), (809052419000, 293491117000, 458869577000),
  (812611506000, 297927865000, 455337565000), (816144382000, 302368130000, 451816385000), (819651255000, 306812282000, 448305861000), (823132309000, 311260703000, 444805781000),
  (826587706000, 315713782000, 441315901000), (830017584000, 320171913000, 437835947000), (833422053000, 324635499000, 434365616000), (836801237000, 329104836000, 430905052000),
  (840155276000, 333580106000, 427454836000), (843484103000, 338062109000, 424013059000), (846787726000, 342551272000, 420579333000), (850066132000, 347048028000, 417153264000),
  (853319279000, 351552815000, 413734445000), (856547103000, 356066072000, 410322469000), (859749520000, 360588229000, 406916975000), (862926559000, 365119408000, 403518809000),
  (866077920000, 369660446000, 400126027000), (869203436000, 374211795000, 396738211000), (872302917000, 378773910000, 393354947000), (875376149000, 383347243000, 389975832000),
  (878422895000, 387932249000, 386600468000), (881442916000, 392529339000, 383228622000), (884435982000, 397138877000, 379860246000), (887401682000, 401761511000, 376494232000),
  (890339687000, 406397694000, 373130228000), (893249647000, 411047871000, 369767893000), (896131191000, 415712489000, 366406907000), (898983931000, 420391986000, 363046965000),
  (901807455000, 425086807000, 359687758000), (904601295000, 429797442000, 356328796000), (907364995000, 434524335000, 352969777000), (910098088000, 439267908000, 349610469000),
  (912800095000, 444028574000, 346250656000), (915470518000, 448806744000, 342890148000), (918108848000, 453602818000, 339528771000), (920714383000, 458417420000, 336165582000),
  (923286660000, 463250828000, 332800827000), (925825146000, 468103387000, 329434512000), (928329275000, 472975465000, 326066550000), (930798469000, 477867420000, 322696876000),
  (933232140000, 482779603000, 319325444000), (935629684000, 487712357000, 315952211000), (937990034000, 492666544000, 312575440000), (940312939000, 497642038000, 309196628000),
  (942597771000, 502639147000, 305815824000), (944843893000, 507658169000, 302433101000), (947050662000, 512699390000, 299048555000), (949217427000, 517763087000, 295662308000),
  (951343530000, 522849522000, 292274506000), (953427725000, 527959550000, 288883445000), (955469640000, 533093083000, 285490391000), (957468770000, 538250172000, 282096149000),
  (959424430000, 543431038000, 278700990000), (961335930000, 548635890000, 275305214000), (963202573000, 553864931000, 271909159000), (965023656000, 559118349000, 268513200000),
  (966798470000, 564396327000, 265117752000), (968525639000, 569699633000, 261721488000), (970204593000, 575028270000, 258325424000), (971835007000, 580382015000, 254931256000),
  (973416145000, 585761012000, 251539615000), (974947262000, 591165394000, 248151200000), (976427606000, 596595287000, 244766775000), (977856416000, 602050811000, 241387186000),
  (979232922000, 607532077000, 238013359000), (980556344000, 613039190000, 234646316000), (981825890000, 618572250000, 231287178000), (983040742000, 624131362000, 227937141000),
  (984198924000, 629717516000, 224595006000), (985300760000, 635329876000, 221264889000), (986345421000, 640968508000, 217948456000), (987332067000, 646633475000, 214647532000),
  (988259846000, 652324832000, 211364122000), (989127893000, 658042630000, 208100426000), (989935328000, 663786914000, 204858855000), (990681261000, 669557720000, 201642049000),
  (991364787000, 675355082000, 198452900000), (991984990000, 681179025000, 195294567000), (992540939000, 687029567000, 192170500000), (993031693000, 692906719000, 189084459000),
  (993456302000, 698810484000, 186040537000), (993813802000, 704740854000, 183043180000), (994103226000, 710697814000, 180097207000), (994323596000, 716681336000, 177207826000),
  (994473934000, 722691379000, 174380656000), (994553260000, 728727890000, 171621733000), (994560594000, 734790799000, 168937522000), (994494964000, 740880020000, 166334918000),
  (994355411000, 746995448000, 163821243000), (994140989000, 753136955000, 161404226000), (993850778000, 759304390000, 159091984000), (993482190000, 765498551000, 156890625000),
  (993033251000, 771719833000, 154807583000), (992505214000, 777966775000, 152854862000), (991897270000, 784239120000, 151041581000), (991208680000, 790536569000, 149376885000),
  (990438793000, 796858775000, 147869810000), (989587065000, 803205337000, 146529128000), (988647741000, 809578605000, 145357284000), (987620557000, 815977942000, 144362644000),
  (986509366000, 822400620000, 143556679000), (985314198000, 828845980000, 142945116000), (984031139000, 835315360000, 142528388000), (982652820000, 841811730000, 142302653000),
  (981190389000, 848328902000, 142278607000), (979643637000, 854866468000, 142453425000), (977994918000, 861432314000, 142808191000), (976264977000, 868015998000, 143350944000),
  (974443038000, 874622194000, 144061156000), (972530009000, 881250063000, 144922913000), (970532932000, 887896125000, 145918663000), (968443477000, 894563989000, 147014438000),
  (966271225000, 901249365000, 148179639000), (964021057000, 907950379000, 149370428000), (961681481000, 914672479000, 150520343000), (959275646000, 921406537000, 151566019000),
  (956808068000, 928152065000, 152409489000), (954286813000, 934907730000, 152921158000), (951726083000, 941670605000, 152925363000), (949150533000, 948434900000, 152177604000),
  (946602270000, 955189860000, 150327944000), (944151742000, 961916487000, 146860789000), (941896120000, 968589814000, 140955606000), (940015097000, 975158357000, 131325517000)]

/-- /repo/src/colourmap/radiance.rs:24 `RADIANCE_COLOURMAP`. -/
def radianceRaw : List RawRgb := [
  (433590000000, 31250000000, 515630000000), (421880000000, 27340000000, 519530000000), (410160000000, 27340000000, 523440000000), (398440000000, 23440000000, 531250000000),
  (382810000000, 23440000000, 535160000000), (363280000000, 19530000000, 542970000000), (347660000000, 15630000000, 550780000000), (328130000000, 11720000000, 558590000000),
  (308590000000, 7810000000, 566410000000), (289060000000, 3910000000, 578130000000), (265630000000, 0, 585940000000), (246090000000, 0, 597660000000),
  (222660000000, 0, 605470000000), (203130000000, 0, 613280000000), (179690000000, 0, 625000000000), (160160000000, 0, 632810000000),
  (140630000000, 0, 640630000000), (121090000000, 0, 648440000000), (101560000000, 0, 656250000000), (85940000000, 0, 664060000000),
  (70310000000, 0, 671880000000), (54690000000, 7810000000, 679690000000), (42970000000, 15630000000, 683590000000), (31250000000, 27340000000, 687500000000),
  (27340000000, 35160000000, 691410000000), (23440000000, 42970000000, 691410000000), (19530000000, 50780000000, 695310000000), (15630000000, 62500000000, 695310000000),
  (11720000000, 70310000000, 699220000000), (7810000000, 82030000000, 703130000000), (3910000000, 93750000000, 703130000000), (3910000000, 109380000000, 707030000000),
  (0, 121090000000, 707030000000), (0, 136720000000, 710940000000), (0, 148440000000, 710940000000), (0, 164060000000, 714840000000),
  (0, 179690000000, 718750000000), (0, 195310000000, 718750000000), (0, 210940000000, 718750000000), (0, 226560000000, 722660000000),
  (0, 246090000000, 722660000000), (0, 261720000000, 726560000000), (0, 277340000000, 726560000000), (0, 296880000000, 726560000000),
  (0, 312500000000, 730470000000), (0, 328130000000, 730470000000), (0, 347660000000, 730470000000), (0, 363280000000, 730470000000),
  (3910000000, 378910000000, 730470000000), (3910000000, 398440000000, 730470000000), (3910000000, 414060000000, 730470000000), (7810000000, 429690000000, 730470000000),
  (7810000000, 445310000000, 730470000000), (11720000000, 460940000000, 726560000000), (11720000000, 476560000000, 726560000000), (15630000000, 492190000000, 726560000000),
  (15630000000, 507810000000, 722660000000), (15630000000, 519530000000, 722660000000), (19530000000, 535160000000, 718750000000), (19530000000, 546880000000, 714840000000),
  (23440000000, 558590000000, 710940000000), (23440000000, 570310000000, 707030000000), (23440000000, 582030000000, 703130000000), (27340000000, 589840000000, 699220000000),
  (27340000000, 601560000000, 695310000000), (27340000000, 609380000000, 691410000000), (31250000000, 617190000000, 683590000000), (31250000000, 628910000000, 671880000000),
  (35160000000, 636720000000, 660160000000), (35160000000, 644530000000, 644530000000), (35160000000, 652340000000, 628910000000), (35160000000, 660160000000, 613280000000),
  (39060000000, 664060000000, 597660000000), (39060000000, 671880000000, 578130000000), (39060000000, 675780000000, 558590000000), (42970000000, 679690000000, 539060000000),
  (42970000000, 679690000000, 519530000000), (42970000000, 683590000000, 496090000000), (46880000000, 683590000000, 476560000000), (46880000000, 687500000000, 457030000000),
  (50780000000, 687500000000, 433590000000), (54690000000, 687500000000, 414060000000), (54690000000, 687500000000, 394530000000), (58590000000, 683590000000, 371090000000),
  (62500000000, 683590000000, 351560000000), (66410000000, 683590000000, 335940000000), (70310000000, 679690000000, 316410000000), (78130000000, 679690000000, 300780000000),
  (82030000000, 675780000000, 285160000000), (85940000000, 671880000000, 269530000000), (93750000000, 671880000000, 257810000000), (101560000000, 667970000000, 246090000000),
  (109380000000, 664060000000, 234380000000), (117190000000, 660160000000, 226560000000), (125000000000, 656250000000, 222660000000), (132810000000, 652340000000, 218750000000),
  (144530000000, 648440000000, 214840000000), (156250000000, 644530000000, 210940000000), (164060000000, 640630000000, 210940000000), (175780000000, 636720000000, 210940000000),
  (187500000000, 632810000000, 214840000000), (203130000000, 625000000000, 214840000000), (214840000000, 617190000000, 218750000000), (226560000000, 613280000000, 222660000000),
  (242190000000, 605470000000, 222660000000), (257810000000, 597660000000, 230470000000), (269530000000, 593750000000, 234380000000), (285160000000, 585940000000, 238280000000),
  (300780000000, 578130000000, 246090000000), (316410000000, 570310000000, 250000000000), (328130000000, 562500000000, 257810000000), (343750000000, 554690000000, 261720000000),
  (359380000000, 542970000000, 269530000000), (375000000000, 535160000000, 273440000000), (386720000000, 527340000000, 281250000000), (402340000000, 519530000000, 285160000000),
  (417970000000, 511720000000, 292970000000), (429690000000, 500000000000, 296880000000), (441410000000, 492190000000, 300780000000), (457030000000, 484380000000, 304690000000),
  (468750000000, 472660000000, 308590000000), (480470000000, 464840000000, 312500000000), (492190000000, 457030000000, 312500000000), (500000000000, 445310000000, 316410000000),
  (511720000000, 437500000000, 316410000000), (519530000000, 429690000000, 316410000000), (527340000000, 421880000000, 312500000000), (531250000000, 414060000000, 312500000000),
  (535160000000, 410160000000, 312500000000), (539060000000, 406250000000, 308590000000), (542970000000, 398440000000, 308590000000), (546880000000, 394530000000, 308590000000),
  (550780000000, 390630000000, 304690000000), (554690000000, 382810000000, 304690000000), (558590000000, 375000000000, 300780000000), (562500000000, 371090000000, 296880000000),
  (562500000000, 363280000000, 296880000000), (566410000000, 359380000000, 292970000000), (570310000000, 351560000000, 289060000000), (570310000000, 347660000000, 285160000000),
  (574220000000, 339840000000, 285160000000), (578130000000, 332030000000, 281250000000), (578130000000, 328130000000, 277340000000), (582030000000, 320310000000, 273440000000),
  (582030000000, 312500000000, 269530000000), (585940000000, 308590000000, 265630000000), (585940000000, 300780000000, 261720000000), (589840000000, 292970000000, 257810000000),
  (589840000000, 285160000000, 253910000000), (589840000000, 281250000000, 250000000000), (593750000000, 273440000000, 246090000000), (593750000000, 265630000000, 242190000000),
  (597660000000, 257810000000, 238280000000), (597660000000, 253910000000, 234380000000), (597660000000, 246090000000, 230470000000), (601560000000, 238280000000, 226560000000),
  (601560000000, 234380000000, 222660000000), (601560000000, 226560000000, 218750000000), (601560000000, 218750000000, 214840000000), (605470000000, 214840000000, 210940000000),
  (605470000000, 207030000000, 207030000000), (605470000000, 199220000000, 199220000000), (609380000000, 195310000000, 195310000000), (609380000000, 187500000000, 191410000000),
  (609380000000, 179690000000, 187500000000), (613280000000, 175780000000, 183590000000), (613280000000, 167970000000, 179690000000), (613280000000, 164060000000, 175780000000),
  (617190000000, 156250000000, 171880000000), (617190000000, 152340000000, 167970000000), (617190000000, 144530000000, 164060000000), (621090000000, 140630000000, 160160000000),
  (621090000000, 132810000000, 156250000000), (621090000000, 128910000000, 152340000000), (625000000000, 125000000000, 148440000000), (625000000000, 121090000000, 144530000000),
  (628910000000, 113280000000, 144530000000), (628910000000, 109380000000, 140630000000), (632810000000, 105470000000, 136720000000), (632810000000, 101560000000, 132810000000),
  (636720000000, 97660000000, 128910000000), (636720000000, 93750000000, 128910000000), (640630000000, 89840000000, 125000000000), (644530000000, 85940000000, 121090000000),
  (644530000000, 82030000000, 121090000000), (656250000000, 70310000000, 113280000000), (664060000000, 62500000000, 109380000000), (671880000000, 50780000000, 101560000000),
  (683590000000, 42970000000, 97660000000), (691410000000, 35160000000, 93750000000), (703130000000, 27340000000, 89840000000), (714840000000, 19530000000, 85940000000),
  (722660000000, 11720000000, 82030000000), (734380000000, 7810000000, 82030000000), (746090000000, 3910000000, 78130000000), (757810000000, 0, 74220000000),
  (769530000000, 0, 74220000000), (777340000000, 0, 70310000000), (789060000000, 0, 66410000000), (800780000000, 0, 66410000000),
  (808590000000, 0, 62500000000), (820310000000, 7810000000, 62500000000), (832030000000, 11720000000, 58590000000), (839840000000, 23440000000, 54690000000),
  (847660000000, 31250000000, 50780000000), (855470000000, 42970000000, 50780000000), (859380000000, 50780000000, 46880000000), (867190000000, 66410000000, 42970000000),
  (875000000000, 78130000000, 42970000000), (882810000000, 93750000000, 39060000000), (886720000000, 109380000000, 35160000000), (894530000000, 125000000000, 31250000000),
  (902340000000, 144530000000, 27340000000), (906250000000, 164060000000, 23440000000), (914060000000, 183590000000, 19530000000), (921880000000, 203130000000, 19530000000),
  (925780000000, 222660000000, 15630000000), (933590000000, 246090000000, 11720000000), (937500000000, 265630000000, 7810000000), (945310000000, 289060000000, 7810000000),
  (949220000000, 308590000000, 3910000000), (957030000000, 332030000000, 0), (960940000000, 355470000000, 0), (964840000000, 375000000000, 0),
  (968750000000, 398440000000, 0), (976560000000, 421880000000, 0), (980470000000, 441410000000, 0), (984380000000, 460940000000, 0),
  (988280000000, 480470000000, 0), (992190000000, 500000000000, 0), (992190000000, 519530000000, 0), (996090000000, 539060000000, 0),
  (996090000000, 558590000000, 3910000000), (996090000000, 578130000000, 7810000000), (996090000000, 601560000000, 11720000000), (996090000000, 621090000000, 15630000000),
  (996090000000, 644530000000, 23440000000), (996090000000, 664060000000, 27340000000), (996090000000, 687500000000, 35160000000), (996090000000, 707030000000, 42970000000),
  (996090000000, 730470000000, 50780000000), (996090000000, 750000000000, 58590000000), (996090000000, 773440000000, 66410000000), (996090000000, 792970000000, 78130000000),
  (996090000000, 812500000000, 85940000000), (996090000000, 832030000000, 93750000000), (996090000000, 851560000000, 101560000000), (996090000000, 871090000000, 109380000000),
  (996090000000, 886720000000, 117190000000), (996090000000, 906250000000, 125000000000), (996090000000, 921880000000, 132810000000), (992190000000, 937500000000, 136720000000),
  (992190000000, 949220000000, 144530000000), (992190000000, 960940000000, 148440000000), (992190000000, 972660000000, 152340000000), (992190000000, 984380000000, 156250000000)]

/-- /repo/src/colourmap/viridis.rs:23 `VIRIDIS_COLOURMAP`. -/
def viridisRaw : List RawRgb := [
  (267004010000, 4874330000, 329415190000), (268510480000, 9604830000, 335426520000), (269943840000, 14624940000, 341378950000), (271304890000, 19941860000, 347268620000),
  (272593840000, 25563090000, 353093030000), (273809340000, 31497480000, 358852560000), (274952420000, 37751810000, 364543230000), (276022380000, 44167230000, 370164180000),
  (277018400000, 50344370000, 375714520000), (277941430000, 56324440000, 381190740000), (278790670000, 62145360000, 386592040000), (279565500000, 67835870000, 391917230000),
  (280266580000, 73417240000, 397163490000), (280893580000, 78907030000, 402329440000), (281445810000, 84319700000, 407414040000), (281923580000, 89666220000, 412415210000),
  (282327390000, 94955450000, 417330860000), (282656330000, 100195760000, 422160320000), (282910490000, 105393450000, 426902020000), (283090950000, 110553070000, 431553750000),
  (283197040000, 115679660000, 436114820000), (283228820000, 120777010000, 440584040000), (283186840000, 125847990000, 444960000000), (283072000000, 130894770000, 449241270000),
  (282883890000, 135920050000, 453427340000), (282622970000, 140925560000, 457517260000), (282290370000, 145912330000, 461509950000), (281886760000, 150881470000, 465404740000),
  (281412280000, 155834250000, 469201280000), (280867730000, 160771320000, 472899090000), (280254680000, 165692720000, 476497620000), (279573990000, 170598840000, 479996750000),
  (278826180000, 175490200000, 483396540000), (278012360000, 180366840000, 486697020000), (277134370000, 185228360000, 489898310000), (276193760000, 190074470000, 493000740000),
  (275191160000, 194905400000, 496004880000), (274128020000, 199720860000, 498911310000), (273005960000, 204520490000, 501720760000), (271828120000, 209303060000, 504434130000),
  (270594730000, 214068990000, 507052430000), (269307560000, 218817820000, 509576780000), (267968460000, 223549110000, 512008400000), (266579840000, 228262100000, 514348700000),
  (265144500000, 232955930000, 516599300000), (263663200000, 237630780000, 518761630000), (262138010000, 242286190000, 520837360000), (260571030000, 246921700000, 522828220000),
  (258964510000, 251536850000, 524736090000), (257322440000, 256130400000, 526563320000), (255645190000, 260702840000, 528311520000), (253934980000, 265253840000, 529982730000),
  (252194040000, 269783060000, 531579050000), (250424620000, 274290240000, 533102610000), (248628990000, 278775090000, 534555610000), (246811400000, 283236620000, 535940930000),
  (244972080000, 287675470000, 537260180000), (243113240000, 292091540000, 538515610000), (241237080000, 296484710000, 539709460000), (239345750000, 300854940000, 540843980000),
  (237441380000, 305202220000, 541921400000), (235526060000, 309526570000, 542943960000), (233602770000, 313827730000, 543914240000), (231673500000, 318105800000, 544834440000),
  (229739260000, 322361270000, 545706330000), (227801920000, 326594320000, 546532000000), (225863300000, 330805150000, 547313530000), (223925150000, 334994000000, 548052910000),
  (221989150000, 339161140000, 548752110000), (220056910000, 343306880000, 549413040000), (218129950000, 347431540000, 550037550000), (216209710000, 351535480000, 550627430000),
  (214297570000, 355619070000, 551184400000), (212394770000, 359682730000, 551710110000), (210503100000, 363726710000, 552206460000), (208623420000, 367751510000, 552674860000),
  (206756280000, 371757750000, 553116530000), (204902570000, 375745890000, 553532820000), (203063090000, 379716440000, 553925050000), (201238540000, 383669890000, 554294410000),
  (199429500000, 387606780000, 554642050000), (197636500000, 391527620000, 554969050000), (195859930000, 395432970000, 555276370000), (194100090000, 399323360000, 555564940000),
  (192357190000, 403199340000, 555835590000), (190631350000, 407061480000, 556089070000), (188922590000, 410910330000, 556326060000), (187230830000, 414746450000, 556547170000),
  (185555930000, 418570400000, 556752920000), (183897630000, 422382750000, 556943770000), (182255610000, 426184050000, 557120100000), (180629490000, 429974860000, 557282210000),
  (179018790000, 433755720000, 557430350000), (177422980000, 437527200000, 557564660000), (175841480000, 441289810000, 557685260000), (174273630000, 445044100000, 557792160000),
  (172718760000, 448790600000, 557885320000), (171176150000, 452529800000, 557964640000), (169645730000, 456262090000, 558030340000), (168126410000, 459988020000, 558081990000),
  (166617100000, 463708130000, 558119130000), (165117030000, 467422900000, 558141410000), (163625430000, 471132780000, 558148420000), (162141550000, 474838210000, 558139670000),
  (160664670000, 478539610000, 558114660000), (159194130000, 482237400000, 558072800000), (157729330000, 485931970000, 558013470000), (156269730000, 489623700000, 557936000000),
  (154814880000, 493312930000, 557839670000), (153364450000, 497000030000, 557723710000), (151918200000, 500685290000, 557587330000), (150476050000, 504369040000, 557429680000),
  (149039180000, 508051360000, 557250500000), (147607310000, 511732630000, 557048610000), (146180260000, 515413160000, 556822710000), (144758630000, 519093190000, 556571810000),
  (143343270000, 522772920000, 556294910000), (141935270000, 526452540000, 555990970000), (140535990000, 530132190000, 555658930000), (139147080000, 533812010000, 555297730000),
  (137770480000, 537492130000, 554906250000), (136408500000, 541172640000, 554483390000), (135065610000, 544853350000, 554029060000), (133742990000, 548534580000, 553541080000),
  (132444010000, 552216370000, 553018280000), (131172490000, 555898720000, 552459480000), (129932700000, 559581620000, 551863540000), (128729380000, 563265030000, 551229270000),
  (127567710000, 566948910000, 550555510000), (126453380000, 570633160000, 549841100000), (125393830000, 574317540000, 549085640000), (124394740000, 578002050000, 548287400000),
  (123462810000, 581686610000, 547444980000), (122605620000, 585371050000, 546557220000), (121831220000, 589055210000, 545622980000), (121148070000, 592738890000, 544641140000),
  (120565010000, 596421870000, 543610580000), (120091540000, 600103870000, 542530430000), (119737560000, 603784590000, 541399990000), (119511630000, 607463880000, 540217510000),
  (119423410000, 611141460000, 538981920000), (119482550000, 614817020000, 537692190000), (119698580000, 618490250000, 536347330000), (120080790000, 622160810000, 534946330000),
  (120638240000, 625828330000, 533488340000), (121379720000, 629492420000, 531972750000), (122312440000, 633152770000, 530398080000), (123443580000, 636808990000, 528763430000),
  (124779530000, 640460690000, 527067920000), (126325810000, 644107440000, 525310690000), (128087030000, 647748810000, 523490920000), (130066880000, 651384360000, 521607910000),
  (132267970000, 655013630000, 519660860000), (134691830000, 658636190000, 517648800000), (137339210000, 662251570000, 515571010000), (140209910000, 665859270000, 513426800000),
  (143302910000, 669458810000, 511215490000), (146616400000, 673049680000, 508936440000), (150147820000, 676631390000, 506588900000), (153894050000, 680203430000, 504172170000),
  (157851460000, 683765250000, 501685740000), (162015980000, 687316320000, 499129060000), (166383200000, 690856110000, 496501630000), (170948400000, 694384050000, 493802940000),
  (175706710000, 697899600000, 491032520000), (180653140000, 701402220000, 488189380000), (185782660000, 704891330000, 485273260000), (191090180000, 708366350000, 482283950000),
  (196570630000, 711826680000, 479221080000), (202219020000, 715271750000, 476084310000), (208030450000, 718700950000, 472873300000), (214000150000, 722113710000, 469587740000),
  (220123810000, 725509450000, 466226380000), (226396900000, 728887530000, 462789340000), (232814980000, 732247350000, 459276750000), (239373900000, 735588280000, 455688380000),
  (246069680000, 738909720000, 452024050000), (252898510000, 742211040000, 448283550000), (259856760000, 745491620000, 444466730000), (266941270000, 748750840000, 440572840000),
  (274149220000, 751988070000, 436600900000), (281476810000, 755202660000, 432552070000), (288921020000, 758393990000, 428426260000), (296478990000, 761561420000, 424223410000),
  (304147960000, 764704330000, 419943460000), (311925340000, 767822070000, 415586380000), (319808600000, 770914030000, 411152150000), (327795800000, 773979530000, 406640110000),
  (335885390000, 777017900000, 402049170000), (344074110000, 780028550000, 397381030000), (352359850000, 783010860000, 392635790000), (360740530000, 785964190000, 387813530000),
  (369214200000, 788887930000, 382914380000), (377778920000, 791781460000, 377938500000), (386432820000, 794644150000, 372886060000), (395174080000, 797475410000, 367757260000),
  (404001010000, 800274610000, 362552230000), (412913500000, 803040990000, 357268930000), (421908130000, 805774120000, 351910090000), (430983170000, 808473430000, 346476070000),
  (440136910000, 811138360000, 340967300000), (449367630000, 813768350000, 335384260000), (458673620000, 816362880000, 329727490000), (468053140000, 818921430000, 323997610000),
  (477504460000, 821443510000, 318195290000), (487025800000, 823928620000, 312321330000), (496615360000, 826376330000, 306376610000), (506271300000, 828786210000, 300362110000),
  (515991820000, 831157840000, 294278880000), (525776220000, 833490640000, 288126500000), (535621100000, 835784520000, 281908320000), (545524400000, 838039180000, 275626020000),
  (555483970000, 840254370000, 269281470000), (565497600000, 842429900000, 262876830000), (575562970000, 844565610000, 256414570000), (585677720000, 846661390000, 249897480000),
  (595839340000, 848717220000, 243328780000), (606045280000, 850733100000, 236712140000), (616292830000, 852709120000, 230051790000), (626579230000, 854645430000, 223352580000),
  (636901570000, 856542260000, 216620120000), (647256850000, 858399910000, 209860860000), (657641970000, 860218780000, 203082290000), (668053690000, 861999320000, 196293070000),
  (678488680000, 863742110000, 189503260000), (688943510000, 865447790000, 182724550000), (699414630000, 867117110000, 175970550000), (709898420000, 868750920000, 169257120000),
  (720391150000, 870350150000, 162602730000), (730889020000, 871915840000, 156028940000), (741388030000, 873449180000, 149561010000), (751884140000, 874951430000, 143228280000),
  (762373420000, 876423920000, 137064490000), (772851830000, 877868080000, 131108640000), (783315350000, 879285450000, 125405380000), (793759940000, 880677630000, 120005320000),
  (804181590000, 882046320000, 114965050000), (814576340000, 883393290000, 110346780000), (824940280000, 884720360000, 106217240000), (835269590000, 886029430000, 102645900000),
  (845560560000, 887322430000, 99702190000), (855809600000, 888601340000, 97451860000), (866013250000, 889868150000, 95952770000), (876168240000, 891124870000, 95250460000),
  (886271460000, 892373530000, 95374390000), (896320020000, 893616140000, 96335380000), (906311210000, 894854670000, 98124960000), (916242120000, 896091270000, 100716800000),
  (926105790000, 897329770000, 104070670000), (935904440000, 898570400000, 108130940000), (945636260000, 899815000000, 112837730000), (955299720000, 901065340000, 118128320000),
  (964893530000, 902323110000, 123940510000), (974416650000, 903589910000, 130214940000), (983868290000, 904867260000, 136896710000), (993247890000, 906156570000, 143936200000)]

/-- The entry as numbers. -/
noncomputable def RawRgb.toRgb (c : RawRgb) : Rgb ℝ := ⟨c.1 / 10 ^ 12, c.2.1 / 10 ^ 12, c.2.2 / 10 ^ 12⟩

/-- /repo/src/colourmap/mod.rs:31-51 `Colourmap`. -/
inductive Colourmap where
  | radiance | inferno | magma | plasma | viridis

/-- The selection in /repo/src/image.rs:327-333 and 395-401. -/
def Colourmap.raw : Colourmap → List RawRgb
  | .inferno => infernoRaw
  | .magma => magmaRaw
  | .plasma => plasmaRaw
  | .radiance => radianceRaw
  | .viridis => viridisRaw

/-- The table of a map. -/
noncomputable def Colourmap.table (m : Colourmap) : List (Rgb ℝ) := m.raw.map RawRgb.toRgb

end Rendering
